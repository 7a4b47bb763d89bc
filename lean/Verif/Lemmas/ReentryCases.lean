import Verif.Lemmas.Reentry
import Verif.Lemmas.Bands

/-!
# Requests from callbacks: the processing call
-/

namespace LDL
open Spec (Request Plan Alike lateEvents afterwards isReport)

/-! ### Requests during an operation -/

theorem request_busy (cfg : Cfg) (e : Env) (m : Mac) (c : Call) (hc : Request c) (ho : m.op ≠ .none) :
    (step cfg m e c).1 = m := by
  cases c with
  | entropy => show (entropy e m).1 = m; rw [entropy_boot, if_neg ho]
  | otaa =>
    show (otaa cfg e m).1 = m
    rw [otaa_start]
    by_cases hj : m.ctx.joined = true
    · rw [if_pos hj]
    · rw [if_neg hj, if_neg ho]
  | data c1 c2 c3 c4 c5 =>
    show (dataCommand cfg e m c1 c2 c3 c4 c5).1 = m
    unfold dataCommand
    by_cases hj : m.ctx.joined = true
    · rw [if_pos hj, if_neg ho]
    · rw [if_neg hj]
  | _ => exact absurd hc (by simp [Request])

theorem run_busy (cfg : Cfg) (l : List (Env × Call)) (hl : ∀ x ∈ l, Request x.2) (m : Mac) (ho : m.op ≠ .none) :
    run cfg m l = m := by
  induction l with
  | nil => rfl
  | cons x l ih =>
    obtain ⟨e, c⟩ := x
    show run cfg (step cfg m e c).1 l = m
    rw [request_busy cfg e m c (hl (e, c) (by simp)) ho]
    exact ih fun y hy => hl y (by simp [hy])

theorem tell_busy (cfg : Cfg) (plan : Plan) (hp : plan.Requests) (m : Mac) (ev : Event) (ho : m.op ≠ .none) :
    Re.tell (plan.app cfg) m ev = m.emit ev :=
  run_busy cfg (plan ev) (hp ev) (m.emit ev) ho

/-! ### Sequences of requests -/

theorem run_behind (cfg : Cfg) (l : List (Env × Call)) (hl : ∀ x ∈ l, Request x.2) (m : Mac) (p : Bool) (b : Timer)
    (o : List Event) : ∃ k, (run cfg m l).out = m.out ++ k ∧
      run cfg (m.behind p b o) l = (run cfg m l).behind p b (o ++ k) := by
  induction l generalizing m o with
  | nil => exact ⟨[], by simp [run], by simp [run]⟩
  | cons x l ih =>
    obtain ⟨e, c⟩ := x
    obtain ⟨k1, h1, h2⟩ := request_behind cfg e m p b o c (hl (e, c) (by simp))
    obtain ⟨k2, h3, h4⟩ := ih (fun y hy => hl y (by simp [hy])) (step cfg m e c).1 (o ++ k1)
    refine ⟨k1 ++ k2, ?_, ?_⟩
    · show (run cfg (step cfg m e c).1 l).out = _
      rw [h3, h1, List.append_assoc]
    · show run cfg (step cfg (m.behind p b o) e c).1 l = _
      rw [h2]
      show run cfg ((step cfg m e c).1.behind p b (o ++ k1)) l = _
      rw [h4, List.append_assoc]
      rfl

theorem run_keeps (cfg : Cfg) (l : List (Env × Call)) (hl : ∀ x ∈ l, Request x.2) (m : Mac) :
    (run cfg m l).parked = m.parked ∧ (run cfg m l).timerBand = m.timerBand := by
  obtain ⟨k, _, h⟩ := run_behind cfg l hl m m.parked m.timerBand m.out
  have : m.behind m.parked m.timerBand m.out = m := rfl
  rw [this] at h
  rw [h]
  exact ⟨rfl, rfl⟩

theorem request_state (cfg : Cfg) (e : Env) (m : Mac) (c : Call) (hc : Request c) (hi : m.state ≠ .idle) :
    (step cfg m e c).1.state = m.state := by
  obtain ⟨l, _, h⟩ := request_aside cfg e m m.state m.timerA m.out hi hi c hc
  have : m.aside m.state m.timerA m.out = m := rfl
  rw [this] at h
  rw [h]
  rfl

theorem run_aside (cfg : Cfg) (l : List (Env × Call)) (hl : ∀ x ∈ l, Request x.2) (m : Mac) (s : St) (t : Timer)
    (o : List Event) (hi : m.state ≠ .idle) (hs : s ≠ .idle) : ∃ k, (run cfg m l).out = m.out ++ k ∧
      run cfg (m.aside s t o) l = (run cfg m l).aside s t (o ++ k) := by
  induction l generalizing m o with
  | nil => exact ⟨[], by simp [run], by simp [run]⟩
  | cons x l ih =>
    obtain ⟨e, c⟩ := x
    have hc := hl (e, c) (by simp)
    obtain ⟨k1, h1, h2⟩ := request_aside cfg e m s t o hi hs c hc
    obtain ⟨k2, h3, h4⟩ := ih (fun y hy => hl y (by simp [hy])) (step cfg m e c).1 (o ++ k1)
      (by rw [request_state cfg e m c hc hi]; exact hi)
    refine ⟨k1 ++ k2, ?_, ?_⟩
    · show (run cfg (step cfg m e c).1 l).out = _
      rw [h3, h1, List.append_assoc]
    · show run cfg (step cfg (m.aside s t o) e c).1 l = _
      rw [h2]
      show run cfg ((step cfg m e c).1.aside s t (o ++ k1)) l = _
      rw [h4, List.append_assoc]
      rfl

/-- The fold of `afterwards`. -/
def toldTo (cfg : Cfg) (plan : Plan) (m : Mac) (ev : Event) : Mac :=
  match ev with
  | .sessionUpdated _ => run cfg m (plan (.sessionUpdated m.ctx))
  | ev => run cfg m (plan ev)

theorem toldTo_behind (cfg : Cfg) (plan : Plan) (hp : plan.Requests) (m : Mac) (ev : Event) (p : Bool) (b : Timer)
    (o : List Event) : ∃ k, (toldTo cfg plan m ev).out = m.out ++ k ∧
      toldTo cfg plan (m.behind p b o) ev = (toldTo cfg plan m ev).behind p b (o ++ k) := by
  unfold toldTo
  cases ev <;> exact run_behind cfg _ (hp _) m p b o

theorem toldAll_behind (cfg : Cfg) (plan : Plan) (hp : plan.Requests) (l : List Event) (m : Mac) (p : Bool) (b : Timer)
    (o : List Event) : ∃ k, (l.foldl (toldTo cfg plan) m).out = m.out ++ k ∧
      l.foldl (toldTo cfg plan) (m.behind p b o) = (l.foldl (toldTo cfg plan) m).behind p b (o ++ k) := by
  induction l generalizing m o with
  | nil => exact ⟨[], by simp, by simp⟩
  | cons ev l ih =>
    obtain ⟨k1, h1, h2⟩ := toldTo_behind cfg plan hp m ev p b o
    obtain ⟨k2, h3, h4⟩ := ih (toldTo cfg plan m ev) (o ++ k1)
    refine ⟨k1 ++ k2, ?_, ?_⟩
    · rw [List.foldl_cons, h3, h1, List.append_assoc]
    · rw [List.foldl_cons, h2, h4, List.append_assoc, List.foldl_cons]

theorem afterwards_fold (cfg : Cfg) (plan : Plan) (m : Mac) (l : List Event) :
    afterwards cfg plan m l = (lateEvents l).foldl (toldTo cfg plan) m := by
  unfold afterwards
  congr 1

theorem afterwards_behind (cfg : Cfg) (plan : Plan) (hp : plan.Requests) (m : Mac) (l : List Event) (p : Bool)
    (b : Timer) : afterwards cfg plan (m.behind p b m.out) l =
      (afterwards cfg plan m l).behind p b (afterwards cfg plan m l).out := by
  rw [afterwards_fold, afterwards_fold]
  obtain ⟨k, h1, h2⟩ := toldAll_behind cfg plan hp (lateEvents l) m p b m.out
  rw [h2, h1]

/-! ### Callbacks during an operation change nothing -/

section
variable (cfg : Cfg) (plan : Plan) (hp : plan.Requests)
include hp

theorem re_nextJoinRequest (e : Env) (m : Mac) (ho : m.op ≠ .none) :
    Re.nextJoinRequest (plan.app cfg) cfg e m = nextJoinRequest cfg e m := by
  unfold Re.nextJoinRequest nextJoinRequest
  obtain ⟨dn, b, bl, t, h⟩ := fillJoinBuffer_shape cfg e m (u16 m.devNonce)
  rw [h]
  exact tell_busy cfg plan hp _ _ ho

theorem re_giveUpData (m : Mac) (ho : m.op ≠ .none) :
    Re.giveUpData (plan.app cfg) cfg m = giveUpData cfg m := by
  unfold Re.giveUpData giveUpData
  obtain ⟨ch, r, p, c, q, h⟩ := adaptRate_shape cfg m
  have h1 : (adaptRate cfg m).2.op ≠ .none := by rw [h]; exact ho
  have h2 : Re.pushSessionUpdate (plan.app cfg) (adaptRate cfg m).2 = pushSessionUpdate (adaptRate cfg m).2 :=
    tell_busy cfg plan hp _ _ h1
  dsimp only
  rw [h2]
  have h3 : (if (adaptRate cfg m).1 = true then pushSessionUpdate (adaptRate cfg m).2 else (adaptRate cfg m).2).op ≠ .none := by
    split
    · exact h1
    · exact h1
  rw [tell_busy cfg plan hp _ _ h3]

theorem re_downlinkMissing (e : Env) (m : Mac) :
    Re.downlinkMissing (plan.app cfg) cfg e m = downlinkMissing cfg e m := by
  unfold Re.downlinkMissing downlinkMissing
  dsimp only
  cases ho : m.op with
  | dataUnconfirmed | dataConfirmed =>
    dsimp only
    rw [re_giveUpData cfg plan hp _ (by simp)]
  | joining =>
    dsimp only
    unfold Re.retryJoin retryJoin
    rw [re_nextJoinRequest cfg plan hp e _ (by simp),
      tell_busy cfg plan hp _ _ (by simp)]
  | _ => rfl

theorem re_applyCommand (e : Env) (n : Bool) (cmd : DownCmd) (m : Mac) (adr : AdrState) (ho : m.op ≠ .none) :
    Re.applyCommand (plan.app cfg) cfg e n cmd m adr = applyCommand cfg e n cmd m adr := by
  cases cmd with
  | linkCheck a b =>
    show (Re.tell _ _ _, _) = _
    rw [tell_busy cfg plan hp _ _ ho]; rfl
  | deviceTime a b =>
    show (Re.tell _ _ _, _) = _
    rw [tell_busy cfg plan hp _ _ ho]; rfl
  | _ => rfl

theorem re_commandLoop (e : Env) (fuel : Nat) (s : Stream) (m : Mac) (adr : AdrState) (ho : m.op ≠ .none) :
    Re.commandLoop (plan.app cfg) cfg e fuel s m adr = commandLoop cfg e fuel s m adr := by
  induction fuel generalizing s m adr with
  | zero => rfl
  | succ n ih =>
    simp only [Re.commandLoop, commandLoop]
    rcases MacCmd.getDownCommand cfg.v11 s with ⟨_ | cmd, s'⟩
    · rfl
    · dsimp only
      rw [re_applyCommand cfg plan hp e _ cmd m adr ho]
      refine ih _ _ _ ?_
      obtain ⟨c, o, h, _⟩ := applyCommand_shape cfg e (MacCmd.peekNextCommand cfg.v11 s' == some .linkADR) cmd m adr
      rw [h]; exact ho

theorem re_processCommands (e : Env) (m : Mac) (inp : Bytes) (ho : m.op ≠ .none) :
    Re.processCommands (plan.app cfg) cfg e m inp = processCommands cfg e m inp := by
  unfold Re.processCommands processCommands
  dsimp only
  rw [re_commandLoop cfg plan hp e _ _ _ _ (by exact ho)]

theorem re_dataOpts (e : Env) (m : Mac) (f : Frame.Down) (buf : Bytes) (ho : m.op ≠ .none) :
    Re.dataOpts (plan.app cfg) cfg e m f buf = dataOpts cfg e m f buf := by
  unfold Re.dataOpts dataOpts
  cases f.opts with
  | none => rfl
  | some off => exact re_processCommands cfg plan hp e m _ ho

theorem re_dataPayload (e : Env) (m : Mac) (f : Frame.Down) (buf : Bytes) (ho : m.op ≠ .none) :
    Re.dataPayload (plan.app cfg) cfg e m f buf = dataPayload cfg e m f buf := by
  unfold Re.dataPayload dataPayload
  cases f.data with
  | none => rfl
  | some off =>
    dsimp only
    rw [re_processCommands cfg plan hp e m _ ho, tell_busy cfg plan hp m _ ho]

theorem re_dataEnd (m : Mac) (ack : Bool) (ho : m.op ≠ .none) :
    Re.dataEnd (plan.app cfg) m ack = dataEnd m ack := by
  unfold Re.dataEnd dataEnd
  rw [tell_busy cfg plan hp m _ ho, tell_busy cfg plan hp m _ ho]
  rfl

theorem re_dataReceived (e : Env) (m : Mac) (f : Frame.Down) (buf : Bytes) (ho : m.op ≠ .none) :
    Re.dataReceived (plan.app cfg) cfg e m f buf = dataReceived cfg e m f buf := by
  unfold Re.dataReceived dataReceived
  have h0 : (dataBegin cfg m f).op ≠ .none := ho
  rw [re_dataOpts cfg plan hp e _ f buf h0]
  obtain ⟨⟨c1, o1, h1⟩, _⟩ := dataOpts_shape cfg e (dataBegin cfg m f) f buf
  have h1' : (dataOpts cfg e (dataBegin cfg m f) f buf).op ≠ .none := by rw [h1]; exact ho
  rw [re_dataPayload cfg plan hp e _ f buf h1']
  obtain ⟨⟨c2, o2, h2⟩, _⟩ := dataPayload_shape cfg e (dataOpts cfg e (dataBegin cfg m f) f buf) f buf
  exact re_dataEnd cfg plan hp _ _ (by rw [h2]; exact h1')

/-! ### The state handler -/

theorem re_handleRadioError (e : Env) (m : Mac) (hs : m.state ≠ .idle) :
    (m.op = .joining ∧ Re.handleRadioError (plan.app cfg) cfg e m = handleRadioError cfg e m) ∨
    (m.op ≠ .joining ∧ ∃ (x : Mac) (k : List Event), x.out = m.out ++ [.opError] ++ k ∧
      Re.handleRadioError (plan.app cfg) cfg e m =
        x.aside .radioReset (Timer.set e (cfg.tps / 1024)) (m.out ++ [.opError] ++ k ++ [.setMode .reset]) ∧
      run cfg (handleRadioError cfg e m) (plan .opError) =
        x.aside .radioReset (Timer.set e (cfg.tps / 1024)) (m.out ++ [.opError] ++ [.setMode .reset] ++ k)) := by
  by_cases ho : m.op = .joining
  · refine Or.inl ⟨ho, ?_⟩
    unfold Re.handleRadioError handleRadioError
    dsimp only
    rw [re_downlinkMissing cfg plan hp, if_pos (show (inputDisarm m).op = .joining from ho),
      if_pos (show (inputDisarm m).op = .joining from ho)]
  · refine Or.inr ⟨ho, ?_⟩
    generalize h0 : ({ inputDisarm m with
      timerA := (inputDisarm m).timerA.clear, timerB := (inputDisarm m).timerB.clear, op := .none } : Mac).emit .opError = m2
    have hout : m2.out = m.out ++ [.opError] := by rw [← h0]; rfl
    have hst : m2.state ≠ .idle := by rw [← h0]; exact hs
    have e1 : Re.handleRadioError (plan.app cfg) cfg e m =
        (run cfg m2 (plan .opError)).aside .radioReset (Timer.set e (cfg.tps / 1024))
          ((run cfg m2 (plan .opError)).out ++ [.setMode .reset]) := by
      unfold Re.handleRadioError
      dsimp only
      rw [if_neg (show ¬ (inputDisarm m).op = .joining from ho)]
      rw [← h0]
      rfl
    have e2 : handleRadioError cfg e m =
        m2.aside .radioReset (Timer.set e (cfg.tps / 1024)) (m2.out ++ [.setMode .reset]) := by
      unfold handleRadioError
      dsimp only
      rw [if_neg (show ¬ (inputDisarm m).op = .joining from ho)]
      rw [← h0]
      rfl
    obtain ⟨k, h1, h2⟩ := run_aside cfg (plan .opError) (hp _) m2 .radioReset (Timer.set e (cfg.tps / 1024))
      (m2.out ++ [.setMode .reset]) hst (by decide)
    refine ⟨run cfg m2 (plan .opError), k, by rw [h1, hout], ?_, ?_⟩
    · rw [e1, h1, hout]
    · rw [e2, h2, hout]

omit hp in
theorem alike_refl (m : Mac) : Alike m m := ⟨rfl, List.Perm.refl _⟩

omit hp in
theorem alike_quiet {R d m : Mac} (l : List Event) (h1 : R = d) (h2 : d.out = m.out ++ l) (h3 : lateEvents l = []) :
    Alike R (afterwards cfg plan d (newEvents m d)) := by
  have : newEvents m d = l := by
    unfold newEvents
    rw [h2, List.drop_left]
  rw [this, afterwards_fold, h3, h1]
  exact alike_refl d

omit hp in
theorem disp_quiet (e : Env) (ev : Sme) (lag : Nat) (m d : Mac) (hd : Disp cfg e ev lag m d)
    (h1 : m.state ≠ .entropy) (h2 : m.state ≠ .tx) (h3 : m.state ≠ .rx1) (h4 : m.state ≠ .rx2)
    (h5 : m.state ≠ .rx2Lockout) : ∃ l, d.out = m.out ++ l ∧ lateEvents l = [] := by
  cases hd with
  | stay => exact ⟨[], by simp, rfl⟩
  | init => exact ⟨_, rfl, rfl⟩
  | reset => exact ⟨_, rfl, rfl⟩
  | boot => exact ⟨_, rfl, rfl⟩
  | startEntropy => exact ⟨_, rfl, rfl⟩
  | entropy hs => exact absurd hs h1
  | otaa => exact ⟨[], by simp, rfl⟩
  | waitA => exact ⟨_, rfl, rfl⟩
  | waitB => exact ⟨_, rfl, rfl⟩
  | startTX => exact ⟨_, rfl, rfl⟩
  | txError hs => exact absurd hs h2
  | txDone hs => exact absurd hs h2
  | startRX1 => exact ⟨_, rfl, rfl⟩
  | startRX2 => exact ⟨_, rfl, rfl⟩
  | rxError hs => exact absurd hs (by simp [h3, h4])
  | rxRejected hs => exact absurd hs (by simp [h3, h4])
  | rxJoin hs => exact absurd hs (by simp [h3, h4])
  | rxData hs => exact absurd hs (by simp [h3, h4])
  | rxTimeout1 hs => exact absurd hs h3
  | rxTimeout2 hs => exact absurd hs h4
  | lockout hs => exact absurd hs h5

omit hp in
theorem missing_quiet (e : Env) (m d : Mac) (h : Missing cfg e m d) : ∃ l, d.out = m.out ++ l ∧
    l ≠ [.opError] ∧ ∀ pre, (pre = [] ∨ pre = [.getStatus, .readBuffer, .setMode .sleep]) → lateEvents (pre ++ l) = [] := by
  cases h with
  | retry => exact ⟨[], by simp, by simp, by rintro _ (rfl | rfl) <;> rfl⟩
  | giveUp ho hr ch r p c q o ho' =>
    refine ⟨o ++ [if m.op = .dataConfirmed then .dataTimeout else .dataComplete], by simp, ?_, ?_⟩
    · rcases ho' with rfl | ⟨s, rfl, _⟩ <;> split <;> simp
    · rintro _ (rfl | rfl) <;> rcases ho' with rfl | ⟨s, rfl, _⟩ <;> split <;> rfl
  | nextJoin ho hn =>
    obtain ⟨dn, b, bl, t, h⟩ := nextJoinRequest_shape cfg e { m with trials := u32 (m.trials + 1) }
    exact ⟨_, by rw [h], by simp, by rintro _ (rfl | rfl) <;> rfl⟩
  | exhausted => exact ⟨_, rfl, by simp, by rintro _ (rfl | rfl) <;> rfl⟩
  | other => exact ⟨[], by simp, by simp, by rintro _ (rfl | rfl) <;> rfl⟩

theorem error_alike (e : Env) (m0 m : Mac) (hs : m0.state ≠ .idle) (pre : List Event)
    (hpre : pre = [] ∨ pre = [.getStatus]) (ho : m0.out = m.out ++ pre) :
    Alike (Re.handleRadioError (plan.app cfg) cfg e m0)
      (afterwards cfg plan (handleRadioError cfg e m0) (newEvents m (handleRadioError cfg e m0))) := by
  have hc := handleRadioError_cases cfg e m0
  rcases re_handleRadioError cfg plan hp e m0 hs with ⟨hj, h⟩ | ⟨hj, x, k, hx, h1, h2⟩
  · rw [h]
    generalize handleRadioError cfg e m0 = d at hc
    cases hc with
    | op hn => exact absurd hj hn
    | nextJoin _ hn m' hm =>
      obtain ⟨dn, b, bl, t, hsh⟩ := nextJoinRequest_shape cfg e { m0 with
        inputArmed := false, timerA := m0.timerA.clear, timerB := m0.timerB.clear, trials := u32 (m0.trials + 1) }
      refine alike_quiet cfg plan (pre ++ [.devNonceUpdated (u32 (m0.devNonce + 1))] ++ [.setMode .reset]) rfl ?_ ?_
      · rw [hm, hsh]
        show m0.out ++ _ ++ _ = _
        rw [ho]; simp
      · rcases hpre with rfl | rfl <;> rfl
    | exhausted _ hn =>
      refine alike_quiet cfg plan (pre ++ [.joinExhausted] ++ [.setMode .reset]) rfl ?_ ?_
      · show m0.out ++ _ ++ _ = _
        rw [ho]; simp
      · rcases hpre with rfl | rfl <;> rfl
  · have hnew : newEvents m (handleRadioError cfg e m0) = pre ++ [.opError] ++ [.setMode .reset] := by
      generalize handleRadioError cfg e m0 = d at hc
      cases hc with
      | op =>
        unfold newEvents
        show List.drop _ (m0.out ++ _ ++ _) = _
        rw [ho, List.append_assoc, List.append_assoc, List.drop_left]; simp
      | nextJoin hn => exact absurd hn hj
      | exhausted hn => exact absurd hn hj
    have hl : lateEvents (pre ++ [.opError] ++ [.setMode .reset]) = [.opError] := by
      rcases hpre with rfl | rfl <;> rfl
    rw [hnew, afterwards_fold, hl]
    show Alike _ (run cfg (handleRadioError cfg e m0) (plan .opError))
    rw [h1, h2]
    refine ⟨rfl, ?_⟩
    show List.Perm (List.filter _ (m0.out ++ [.opError] ++ k ++ [.setMode .reset]))
      (List.filter _ (m0.out ++ [.opError] ++ [.setMode .reset] ++ k))
    refine List.Perm.filter _ ?_
    rw [List.append_assoc, List.append_assoc (m0.out ++ [Event.opError])]
    exact (List.Perm.refl _).append List.perm_append_comm

omit hp in
theorem lateEvents_append (a l : List Event) (ha : a = [] ∨ a = [.channelReady]) :
    lateEvents (a ++ l) = lateEvents l := by
  rcases ha with rfl | rfl
  · rfl
  · cases l with
    | nil => rfl
    | cons x l =>
      unfold lateEvents
      rw [List.singleton_append, List.getLast?_cons_cons]
      rfl

omit hp in
theorem lateEvents_report (a : List Event) (s : Session)
    (ha : ∀ ev ∈ a, (match ev with | .entropy _ | .opError | .joinComplete .. => true | _ => false) = false) :
    lateEvents (a ++ [.sessionUpdated s]) = [.sessionUpdated s] := by
  unfold lateEvents
  rw [List.getLast?_concat, List.filter_append, List.filter_eq_nil_iff.mpr]
  · rfl
  · intro ev hev
    have h := ha ev hev
    intro h'
    cases ev <;> first | (cases h; done) | (cases h'; done)

theorem re_joinAccepted (m : Mac) (f : Frame.Down) (buf : Bytes) (x : Mac) (pre : List Event)
    (hx : x.out = m.out ++ pre) (hpre : pre = [.getStatus, .readBuffer, .setMode .sleep]) :
    Alike (Re.pushSessionUpdate (plan.app cfg) (Re.joinAccepted (plan.app cfg) cfg x f buf))
      (afterwards cfg plan (pushSessionUpdate (joinAccepted cfg x f buf))
        (newEvents m (pushSessionUpdate (joinAccepted cfg x f buf)))) := by
  obtain ⟨ev, hev, h1, h2⟩ : ∃ ev, (∃ a b c, ev = Event.joinComplete a b c) ∧
      Re.joinAccepted (plan.app cfg) cfg x f buf = run cfg (joinAccepted cfg x f buf) (plan ev) ∧
      (joinAccepted cfg x f buf).out = x.out ++ [ev] := by
    obtain ⟨r, cc, cm, v, pc, k, h⟩ := joinAccepted_shape cfg x f buf
    refine ⟨_, ⟨_, _, _, rfl⟩, rfl, ?_⟩
    unfold joinAccepted
    dsimp only [Mac.emit]
    obtain ⟨k, hk⟩ := deriveKeys_shape cfg ({ x with ctx := joinSession cfg x f buf, joinNonce := f.joinNonce } : Mac)
    rw [hk]
  rw [h1]
  generalize joinAccepted cfg x f buf = j at *
  generalize hy : run cfg j (plan ev) = y
  have hnew : newEvents m (pushSessionUpdate j) = pre ++ [ev] ++ [.sessionUpdated j.ctx] := by
    unfold newEvents pushSessionUpdate Mac.emit
    dsimp only
    rw [h2, hx, List.append_assoc, List.append_assoc, List.drop_left]; simp
  have hl : lateEvents (pre ++ [ev] ++ [.sessionUpdated j.ctx]) = [ev, .sessionUpdated j.ctx] := by
    obtain ⟨a, b, c, rfl⟩ := hev
    subst hpre
    rfl
  have hfold : afterwards cfg plan (pushSessionUpdate j) (newEvents m (pushSessionUpdate j)) =
      toldTo cfg plan (run cfg (pushSessionUpdate j) (plan ev)) (.sessionUpdated j.ctx) := by
    rw [hnew, afterwards_fold, hl]
    obtain ⟨a, b, c, rfl⟩ := hev
    rfl
  rw [hfold]
  obtain ⟨k1, g1, g2⟩ := run_behind cfg (plan ev) (hp _) j j.parked j.timerBand (j.out ++ [.sessionUpdated j.ctx])
  have hpush : pushSessionUpdate j = j.behind j.parked j.timerBand (j.out ++ [.sessionUpdated j.ctx]) := rfl
  rw [hpush, g2]
  rw [hy] at g1 g2 ⊢
  have hk := run_keeps cfg (plan ev) (hp _) j
  rw [hy] at hk
  have hR : Re.pushSessionUpdate (plan.app cfg) y =
      run cfg (y.behind y.parked y.timerBand (y.out ++ [.sessionUpdated y.ctx])) (plan (.sessionUpdated y.ctx)) := rfl
  have hT : toldTo cfg plan (y.behind j.parked j.timerBand (j.out ++ [.sessionUpdated j.ctx] ++ k1)) (.sessionUpdated j.ctx) =
      run cfg (y.behind j.parked j.timerBand (j.out ++ [.sessionUpdated j.ctx] ++ k1)) (plan (.sessionUpdated y.ctx)) := rfl
  rw [hR, hT]
  obtain ⟨k2, f1, f2⟩ := run_behind cfg (plan (.sessionUpdated y.ctx)) (hp _) y y.parked y.timerBand
    (y.out ++ [.sessionUpdated y.ctx])
  obtain ⟨k3, f3, f4⟩ := run_behind cfg (plan (.sessionUpdated y.ctx)) (hp _) y j.parked j.timerBand
    (j.out ++ [.sessionUpdated j.ctx] ++ k1)
  have hk23 : k2 = k3 := List.append_cancel_left (f1.symm.trans f3)
  subst hk23
  rw [f2, f4]
  refine ⟨rfl, ?_⟩
  show List.Perm (List.filter _ (y.out ++ [.sessionUpdated y.ctx] ++ k2))
    (List.filter _ (j.out ++ [.sessionUpdated j.ctx] ++ k1 ++ k2))
  rw [g1]
  simp only [List.filter_append]
  have hf : ∀ s, List.filter (fun x => !isReport x) [Event.sessionUpdated s] = [] := fun _ => rfl
  rw [hf, hf]
  simp only [List.append_nil]
  exact List.Perm.refl _

theorem re_dispatch (e : Env) (ev : Sme) (lag : Nat) (m : Mac) :
    Alike (Re.dispatch (plan.app cfg) cfg e ev lag m)
      (afterwards cfg plan (dispatch cfg e ev lag m) (newEvents m (dispatch cfg e ev lag m))) := by
  have hd := dispatch_disp cfg e ev lag m
  by_cases h1 : m.state = .entropy
  · have a1 : Re.dispatch (plan.app cfg) cfg e ev lag m = Re.processEntropy (plan.app cfg) e ev m := by
      unfold Re.dispatch; rw [h1]
    have a2 : dispatch cfg e ev lag m = processEntropy e ev m := by unfold dispatch; rw [h1]
    rw [a1, a2]
    unfold Re.processEntropy processEntropy
    by_cases ht : ev = .timerA
    · rw [if_pos ht, if_pos ht]
      let Z : Mac := ({ (m.emit .readEntropy).emit (.setMode .sleep) with state := .idle, op := .none } : Mac).emit
        (.entropy (u32 e.entropy))
      show Alike (run cfg Z (plan (.entropy (u32 e.entropy)))) (afterwards cfg plan Z (newEvents m Z))
      have hn : newEvents m Z = [.readEntropy, .setMode .sleep, .entropy (u32 e.entropy)] := by
        unfold newEvents
        show List.drop _ (m.out ++ _ ++ _ ++ _) = _
        rw [List.append_assoc, List.append_assoc, List.drop_left]; rfl
      rw [hn]
      exact alike_refl _
    · rw [if_neg ht, if_neg ht]
      exact alike_quiet cfg plan [] rfl (by simp) rfl
  · by_cases h2 : m.state = .tx
    · have a1 : Re.dispatch (plan.app cfg) cfg e ev lag m = Re.processTX (plan.app cfg) cfg e ev lag m := by
        unfold Re.dispatch; rw [h2]
      have a2 : dispatch cfg e ev lag m = processTX cfg e ev lag m := by unfold dispatch; rw [h2]
      rw [a1, a2]
      obtain ⟨b, hb⟩ := registerTime_shape (m.emit .getStatus)
      obtain ⟨b', hb'⟩ := registerTime_shape m
      unfold Re.processTX processTX
      dsimp only
      by_cases ht : ev = .timerA
      · subst ht
        simp only [reduceCtorEq, if_false, false_or, if_true]
        exact error_alike cfg plan hp e (registerTime m) m (by rw [hb']; show m.state ≠ _; rw [h2]; decide) []
          (Or.inl rfl) (by rw [hb']; simp)
      · by_cases hi : ev = .interrupt
        · subst hi
          simp only [reduceCtorEq, if_true, or_false, if_false, true_and]
          by_cases hf : e.statusTx = false
          · rw [if_pos hf, if_pos hf]
            exact error_alike cfg plan hp e (registerTime (m.emit .getStatus)) m
              (by rw [hb]; show m.state ≠ _; rw [h2]; decide) [.getStatus] (Or.inr rfl) (by rw [hb]; rfl)
          · rw [if_neg hf, if_neg hf]
            obtain ⟨_, _, _, _, _, h, _⟩ := txComplete_shape cfg e lag (registerTime (m.emit .getStatus))
            refine alike_quiet cfg plan [.getStatus, .setMode .hold] rfl ?_ rfl
            rw [h, hb]
            simp [Mac.emit]
        · have : ¬ (ev = .interrupt ∨ ev = .timerA) := by simp [ht, hi]
          simp only [if_neg ht, if_neg hi, if_neg this]
          simp only [hi, false_and, if_false]
          exact alike_quiet cfg plan [] rfl (by simp) rfl
    · by_cases h3 : m.state = .rx1 ∨ m.state = .rx2
      · have a1 : Re.dispatch (plan.app cfg) cfg e ev lag m = Re.processRX (plan.app cfg) cfg e ev m := by
          unfold Re.dispatch; rcases h3 with h | h <;> rw [h]
        have a2 : dispatch cfg e ev lag m = processRX cfg e ev m := by
          unfold dispatch; rcases h3 with h | h <;> rw [h]
        have hst : (m.emit .getStatus).state ≠ .idle := by
          show m.state ≠ _
          rcases h3 with h | h <;> rw [h] <;> decide
        rw [a1]
        rw [a2] at hd ⊢
        unfold Re.processRX
        have herr := error_alike cfg plan hp e (m.emit .getStatus) m hst [.getStatus] (Or.inr rfl) rfl
        by_cases ht : ev = .timerA
        · have : processRX cfg e ev m = handleRadioError cfg e (m.emit .getStatus) := by unfold processRX; rw [if_pos ht]
          rw [if_pos ht, this]
          exact herr
        · rw [if_neg ht]
          by_cases hi : ev = .interrupt
          · rw [if_pos hi]
            dsimp only
            by_cases hn : e.statusRx = false ∧ e.statusTimeout = false
            · have : processRX cfg e ev m = handleRadioError cfg e (m.emit .getStatus) := by
                unfold processRX; rw [if_neg ht, if_pos hi]; dsimp only; rw [if_pos hn]
              rw [if_pos hn, this]
              exact herr
            · rw [if_neg hn]
              by_cases hr : e.statusRx = true
              · rw [if_pos hr]
                have hR : Re.packetReceived (plan.app cfg) cfg e (m.emit .getStatus) =
                    match Ops.receiveFrame cfg (packetState e m) e.rxBuffer e.received.length with
                    | (some f, buf) => Re.pushSessionUpdate (plan.app cfg) (
                        if f.type = Frame.DATA_CONFIRMED_DOWN ∨ f.type = Frame.DATA_UNCONFIRMED_DOWN
                        then Re.dataReceived (plan.app cfg) cfg e (packetState e m) f buf
                        else Re.joinAccepted (plan.app cfg) cfg (packetState e m) f buf)
                    | (none, _) => Re.downlinkMissing (plan.app cfg) cfg e (packetState e m) := rfl
                rw [hR]
                have hc : Ops.receiveFrame cfg (packetState e m) e.rxBuffer e.received.length =
                    Ops.receiveFrame cfg m e.rxBuffer e.received.length :=
                  receiveFrame_congr _ _ _ _ _ rfl rfl rfl rfl rfl
                rw [hc]
                have hpk : (packetState e m).out = m.out ++ [.getStatus, .readBuffer, .setMode .sleep] := by
                  unfold packetState; simp
                generalize hD : processRX cfg e ev m = d at hd ⊢
                cases hd with
                | rxRejected _ _ _ buf hf =>
                  rw [hf]
                  dsimp only
                  rw [re_downlinkMissing cfg plan hp]
                  obtain ⟨l, g1, _, g2⟩ := missing_quiet cfg e _ _ (downlinkMissing_missing cfg e (packetState e m))
                  refine alike_quiet cfg plan ([.getStatus, .readBuffer, .setMode .sleep] ++ l) rfl ?_ (g2 _ (Or.inr rfl))
                  rw [g1, hpk, List.append_assoc]
                | rxJoin _ _ _ f buf hf hty _ =>
                  rw [hf]
                  dsimp only
                  rw [if_neg (by rw [hty]; decide)]
                  exact re_joinAccepted cfg plan hp m f buf (packetState e m) _ hpk rfl
                | rxData _ _ _ f buf hf hty ho =>
                  rw [hf]
                  dsimp only
                  rw [if_pos hty, re_dataReceived cfg plan hp e (packetState e m) f buf
                    (by show m.op ≠ _; rcases ho with h | h | h <;> rw [h] <;> decide)]
                  obtain ⟨c, o, h, ho2⟩ := dataReceived_shape cfg e (packetState e m) f buf
                  generalize hz : dataReceived cfg e (packetState e m) f buf = z at *
                  have hnew : newEvents m (pushSessionUpdate z) =
                      [.getStatus, .readBuffer, .setMode .sleep] ++ (o ++ dataEndEvents m.op f.ack) ++ [.sessionUpdated z.ctx] := by
                    unfold newEvents pushSessionUpdate Mac.emit
                    dsimp only
                    have : z.out = m.out ++ ([.getStatus, .readBuffer, .setMode .sleep] ++ (o ++ dataEndEvents m.op f.ack)) := by
                      rw [h]; show (packetState e m).out ++ _ ++ _ = _
                      rw [hpk]; simp [packetState]
                    rw [this, List.append_assoc, List.drop_left]
                  rw [hnew, afterwards_fold, lateEvents_report]
                  · exact alike_refl _
                  · intro x hx
                    simp only [List.mem_append, List.mem_cons, List.not_mem_nil, or_false] at hx
                    rcases hx with (rfl | rfl | rfl) | hx | hx
                    · rfl
                    · rfl
                    · rfl
                    · rcases ho2 x hx with hx | ⟨off, _, _, rfl⟩
                      · cases x <;> first | rfl | exact absurd hx (by simp [InfoEvent])
                      · rfl
                    · unfold dataEndEvents at hx
                      split at hx
                      · cases hk : f.ack <;> rw [hk] at hx <;> simp at hx <;> subst hx <;> rfl
                      · simp at hx
                      · simp at hx; subst hx; rfl
                | stay hig => unfold Ignores at hig; rcases h3 with h | h <;> rw [h] at hig <;> exact absurd hi hig.2
                | rxError _ he => 
                  rcases he with he | ⟨_, he⟩
                  · exact absurd he ht
                  · exact absurd he hn
                | rxTimeout1 _ _ h => rw [hr] at h; cases h
                | rxTimeout2 _ _ h => rw [hr] at h; cases h
                | init hs | reset hs | boot hs | startEntropy hs | entropy hs | otaa hs | waitA hs | waitB hs | startTX hs
                | txError hs | txDone hs | startRX1 hs | startRX2 hs | lockout hs =>
                  rcases h3 with h | h <;> rw [h] at hs <;> simp at hs
              · rw [if_neg hr]
                have : processRX cfg e ev m = rxTimeout cfg e (m.emit .getStatus) := by
                  unfold processRX; rw [if_neg ht, if_pos hi]; dsimp only; rw [if_neg hn, if_neg hr]
                rw [this]
                unfold rxTimeout
                split
                · exact alike_quiet cfg plan [.getStatus, .setMode .sleep] rfl (by simp [Mac.emit]) rfl
                · exact alike_quiet cfg plan [.getStatus, .setMode .hold] rfl (by simp [Mac.emit]) rfl
          · have : processRX cfg e ev m = m := by unfold processRX; rw [if_neg ht, if_neg hi]
            rw [if_neg hi, this]
            exact alike_quiet cfg plan [] rfl (by simp) rfl
      · by_cases h5 : m.state = .rx2Lockout
        · have a1 : Re.dispatch (plan.app cfg) cfg e ev lag m = Re.processRX2Lockout (plan.app cfg) cfg e ev m := by
            unfold Re.dispatch; rw [h5]
          have a2 : dispatch cfg e ev lag m = processRX2Lockout cfg e ev m := by unfold dispatch; rw [h5]
          rw [a1, a2]
          unfold Re.processRX2Lockout processRX2Lockout
          rw [re_downlinkMissing cfg plan hp]
          split
          · obtain ⟨l, g1, _, g2⟩ := missing_quiet cfg e _ _ (downlinkMissing_missing cfg e m)
            exact alike_quiet cfg plan l rfl g1 (g2 [] (Or.inl rfl))
          · exact alike_quiet cfg plan [] rfl (by simp) rfl
        · have h3' : m.state ≠ .rx1 := fun h => h3 (Or.inl h)
          have h4' : m.state ≠ .rx2 := fun h => h3 (Or.inr h)
          obtain ⟨l, g1, g2⟩ := disp_quiet cfg e ev lag m _ hd h1 h2 h3' h4' h5
          refine alike_quiet cfg plan l ?_ g1 g2
          unfold Re.dispatch
          split
          · next h => exact absurd h h1
          · next h => exact absurd h h2
          · next h => exact absurd h h3'
          · next h => exact absurd h h4'
          · next h => exact absurd h h5
          · rfl

/-! ### The processing call -/

theorem re_processBands (e : Env) (m : Mac) (hch : m.op ≠ .none ∨ plan .channelReady = []) :
    Re.processBands (plan.app cfg) cfg e m = processBands cfg e m := by
  unfold Re.processBands processBands
  dsimp only
  have h : Re.tell (plan.app cfg) (tickBands cfg e m) .channelReady = (tickBands cfg e m).emit .channelReady := by
    rcases hch with h | h
    · exact tell_busy cfg plan hp _ _ h
    · show run cfg _ (plan .channelReady) = _
      rw [h]; rfl
  rw [h]

omit hp in
theorem processBands_events (e : Env) (m : Mac) : ∃ a, (a = [] ∨ a = [.channelReady]) ∧
    (processBands cfg e m).2.out = m.out ++ a := by
  unfold processBands
  split
  · exact ⟨[], Or.inl rfl, by simp⟩
  · dsimp only
    split
    · exact ⟨_, Or.inr rfl, rfl⟩
    · exact ⟨[], Or.inl rfl, by simp [tickBands]⟩

omit hp in
theorem pickEvent_out (e : Env) (b : Bool) (m : Mac) : (pickEvent e b m).2.2.out = m.out := by
  unfold pickEvent inputCheck
  by_cases hi : m.inputState = true
  · rw [if_pos hi]
  · rw [if_neg hi]
    dsimp only
    cases m.timerA.check e with
    | some lag => rfl
    | none =>
      dsimp only
      cases m.timerB.check e with
      | some lag => rfl
      | none => rfl

omit hp in
theorem alike_behind {m m' : Mac} (h : Alike m m') (p : Bool) (b : Timer) (p' : Bool) (b' : Timer) :
    Alike (m.behind p b m.out) (m'.behind p' b' m'.out) := by
  refine ⟨?_, h.events⟩
  have := congrArg (fun x : Mac => x.behind p' b' x.out) h.state
  exact this

omit hp in
theorem dispatch_out (e : Env) (ev : Sme) (lag : Nat) (m : Mac) : ∃ l, (dispatch cfg e ev lag m).out = m.out ++ l := by
  have hd := dispatch_disp cfg e ev lag m
  generalize dispatch cfg e ev lag m = d at hd
  have herr : ∀ x l, Mac.out x = m.out ++ l → ∃ l, (handleRadioError cfg e x).out = m.out ++ l := by
    intro x l hx
    have hc := handleRadioError_cases cfg e x
    generalize handleRadioError cfg e x = d at hc
    cases hc with
    | op => exact ⟨l ++ _, by rw [← List.append_assoc, ← hx, List.append_assoc]⟩
    | nextJoin _ _ m' hm =>
      obtain ⟨dn, b, bl, t, hsh⟩ := nextJoinRequest_shape cfg e { x with
        inputArmed := false, timerA := x.timerA.clear, timerB := x.timerB.clear, trials := u32 (x.trials + 1) }
      refine ⟨l ++ ([.devNonceUpdated (u32 (x.devNonce + 1))] ++ [.setMode .reset]), ?_⟩
      rw [hm, hsh, ← List.append_assoc, ← hx, ← List.append_assoc]
    | exhausted => exact ⟨l ++ _, by rw [← List.append_assoc, ← hx, List.append_assoc]⟩
  have hmis : ∀ x l, Mac.out x = m.out ++ l → ∃ l, (downlinkMissing cfg e x).out = m.out ++ l := by
    intro x l hx
    obtain ⟨k, h, _⟩ := missing_quiet cfg e x _ (downlinkMissing_missing cfg e x)
    exact ⟨l ++ k, by rw [h, hx, List.append_assoc]⟩
  have hpk : (packetState e m).out = m.out ++ [.getStatus, .readBuffer, .setMode .sleep] := by
    unfold packetState; simp
  cases hd with
  | stay => exact ⟨[], by simp⟩
  | otaa => exact ⟨[], by simp⟩
  | txError =>
    obtain ⟨b, hb⟩ := registerTime_shape (statusRead ev m)
    refine herr _ (if ev = .interrupt then [.getStatus] else []) ?_
    rw [hb]
    unfold statusRead
    split
    · rfl
    · simp
  | txDone =>
    obtain ⟨b, hb⟩ := registerTime_shape (m.emit .getStatus)
    obtain ⟨_, _, _, _, _, h, _⟩ := txComplete_shape cfg e lag (registerTime (m.emit .getStatus))
    exact ⟨[.getStatus, .setMode .hold], by rw [h, hb]; simp [Mac.emit]⟩
  | rxError => exact herr _ [.getStatus] rfl
  | rxRejected => exact hmis _ _ hpk
  | lockout => exact hmis _ [] (by simp)
  | rxJoin _ _ _ f buf =>
    obtain ⟨r, cc, cm, v, pc, k, h⟩ := joinAccepted_shape cfg (packetState e m) f buf
    rw [h]
    unfold pushSessionUpdate Mac.emit
    dsimp only
    rw [hpk, List.append_assoc, List.append_assoc]
    exact ⟨_, rfl⟩
  | rxData _ _ _ f buf =>
    obtain ⟨c, o, h, _⟩ := dataReceived_shape cfg e (packetState e m) f buf
    rw [h]
    unfold pushSessionUpdate Mac.emit
    dsimp only
    rw [hpk, List.append_assoc, List.append_assoc, List.append_assoc]
    exact ⟨_, rfl⟩
  | rxTimeout1 => exact ⟨_, List.append_assoc ..⟩
  | rxTimeout2 => exact ⟨_, List.append_assoc ..⟩
  | _ => exact ⟨_, rfl⟩

theorem re_process (e : Env) (m : Mac) (hch : m.op ≠ .none ∨ plan .channelReady = []) :
    Alike (Re.process (plan.app cfg) cfg e m)
      (afterwards cfg plan (process cfg e m) (newEvents m (process cfg e m))) := by
  unfold Re.process process
  rw [re_processBands cfg plan hp e m hch]
  dsimp only
  obtain ⟨a, ha, hba⟩ := processBands_events cfg e m
  have hpo := pickEvent_out e (processBands cfg e m).1 (processBands cfg e m).2
  generalize pickEvent e (processBands cfg e m).1 (processBands cfg e m).2 = p at *
  generalize hR : (if p.1 = .none then p.2.2 else Re.dispatch (plan.app cfg) cfg e p.1 p.2.1 p.2.2) = R
  generalize hd : (if p.1 = .none then p.2.2 else dispatch cfg e p.1 p.2.1 p.2.2) = d
  have key : Alike R (afterwards cfg plan d (newEvents p.2.2 d)) ∧ ∃ l, d.out = p.2.2.out ++ l := by
    rw [← hR, ← hd]
    by_cases hn : p.1 = .none
    · rw [if_pos hn, if_pos hn]
      exact ⟨alike_quiet cfg plan [] rfl (by simp) rfl, [], by simp⟩
    · rw [if_neg hn, if_neg hn]
      exact ⟨re_dispatch cfg plan hp e p.1 p.2.1 p.2.2, dispatch_out cfg e p.1 p.2.1 p.2.2⟩
  obtain ⟨hal, l, hl⟩ := key
  obtain ⟨q1, b1, e1⟩ := setNextBandEvent_shape cfg e R
  obtain ⟨q2, b2, e2⟩ := setNextBandEvent_shape cfg e d
  have e1' : setNextBandEvent cfg e R = R.behind q1 b1 R.out := e1
  have e2' : setNextBandEvent cfg e d = d.behind q2 b2 d.out := e2
  have n1 : newEvents p.2.2 d = l := by unfold newEvents; rw [hl, List.drop_left]
  have n2 : newEvents m (d.behind q2 b2 d.out) = a ++ l := by
    unfold newEvents
    show List.drop _ d.out = _
    rw [hl, hpo, hba, List.append_assoc, List.drop_left]
  rw [e1', e2', n2, afterwards_behind cfg plan hp]
  rw [n1] at hal
  have hsame : afterwards cfg plan d (a ++ l) = afterwards cfg plan d l := by
    rw [afterwards_fold, afterwards_fold, lateEvents_append a l ha]
  rw [hsame]
  exact alike_behind hal _ _ _ _

omit hp in
theorem setNextBandEvent_again (e : Env) (m : Mac) :
    setNextBandEvent cfg e (setNextBandEvent cfg e m) = setNextBandEvent cfg e m := by
  have h : ∀ x : Mac, setNextBandEvent cfg e x =
      if nextTime x < UINT32_MAX then
        { x with
          parked := false
          timerBand := Timer.set e (if nextTime x < u32 (INT32_MAX / cfg.tps * timeTPS) then
              u32 ((nextTime x / timeTPS + (if nextTime x % timeTPS > 0 then 1 else 0)) * cfg.tps)
            else u32 (INT32_MAX / cfg.tps * INT32_MAX)) }
      else { x with parked := true, timerBand := x.timerBand.clear } := fun _ => rfl
  obtain ⟨p, b, hs⟩ := setNextBandEvent_shape cfg e m
  have hn : nextTime (setNextBandEvent cfg e m) = nextTime m := by
    refine nextTime_congr ?_
    rw [hs]; rfl
  rw [h (setNextBandEvent cfg e m), hn, h m]
  by_cases ht : nextTime m < UINT32_MAX
  · rw [if_pos ht, if_pos ht]
  · rw [if_neg ht, if_neg ht]; rfl

end

end LDL
