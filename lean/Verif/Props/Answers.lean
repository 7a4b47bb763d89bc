import Verif.Lemmas.Pending
import Verif.Props.Commands

/-!
# C09 (second half), C58: the answers to MAC commands
-/

namespace LDL
open Spec Frame

/-! ## C09: all the answers fit -/

/-- **C09**: whatever is due, and whatever the application asks for, the MAC commands of the next uplink are all
written, in at most 21 of the 30 bytes of the scratch buffer, one after the other, without an error. -/
theorem c09_all_fit (cfg : Cfg) (s : Session) (o : DataOpts) :
    let st := (putAnswers cfg s o).1
    st.error = false ∧ st.pos ≤ 21 ∧ st.size = 30 ∧
      st.mem.take st.pos = (answers cfg.v11 s o.check o.getTime).flatMap encodeUp := by
  have h := putAnswers_inv cfg s o
  refine ⟨h.error, by rw [h.pos]; exact h.fit, h.size, ?_⟩
  show (putAnswers cfg s o).1.mem.take (putAnswers cfg s o).1.pos = _
  rw [h.mem, h.pos, List.take_left]

/-- A session with an answer due to every request of LoRaWAN 1.1: 21 bytes. -/
example : ((answers true { Demo.joined.ctx with pendingCmds := 0x3fff } true true).flatMap encodeUp).length = 21 := by
  decide +kernel

/-! ## C58: sticky and single-shot answers -/

/-- The answer a request calls for. -/
def requests (r : Region) : DownCmd → Option CmdType
  | .linkCheck .. | .deviceTime .. | .forceRejoin .. | .rekey _ => none
  | .linkADR .. => some .linkADR
  | .dutyCycle _ => some .dutyCycle
  | .rxParamSetup .. => some .rxParamSetup
  | .devStatus => some .devStatus
  | .newChannel .. => if definable r then some .newChannel else none
  | .dlChannel .. => if definable r then some .dlChannel else none
  | .rxTimingSetup _ => some .rxTimingSetup
  | .txParamSetup _ => if hasTxParam r then some .txParamSetup else none
  | .adrParamSetup .. => some .adrParamSetup
  | .rejoinParamSetup .. => some .rejoinParamSetup

/-- Answers repeated until a downlink is received. -/
def UntilDownlink (t : CmdType) : Prop := t = .rxParamSetup ∨ t = .dlChannel ∨ t = .rxTimingSetup

theorem obey_due (r : Region) (v b : Nat) (snr : Int) (p : Params) (c : DownCmd) {t : CmdType} (h1 : t ≠ .linkADR)
    (h2 : t ≠ .rekey) : (obey r v b snr p c).due t = true ↔ requests r c = some t ∨ p.due t = true := by
  have key : ∀ (q : Params) (u : CmdType), q.due t = p.due t →
      ((q.answer u).due t = true ↔ some u = some t ∨ p.due t = true) := fun q u hq => by
    simp only [Params.answer, Bool.or_eq_true, decide_eq_true_eq, Option.some.injEq, hq]
    rw [eq_comm]
  have no : p.due t = true ↔ (none : Option CmdType) = some t ∨ p.due t = true := by simp
  have adr : p.due t = true ↔ some CmdType.linkADR = some t ∨ p.due t = true := by simp [Ne.symm h1]
  cases c <;> simp only [obey, requests] <;> (try split) <;>
    first | exact no | exact adr | exact key _ _ rfl | simp [h2]

theorem fold_due (r : Region) (v b : Nat) (snr : Int) {t : CmdType} (h1 : t ≠ .linkADR) (h2 : t ≠ .rekey)
    (cs : List DownCmd) (p : Params) : (cs.foldl (obey r v b snr) p).due t = true ↔
      (∃ c ∈ cs, requests r c = some t) ∨ p.due t = true := by
  induction cs generalizing p with
  | nil => simp
  | cons c cs ih =>
    rw [List.foldl_cons, ih, obey_due r v b snr p c h1 h2]
    simp only [List.mem_cons, exists_eq_or_imp]
    rw [← or_assoc, or_comm (b := requests r c = some t)]

/-- **C58**, a downlink: the answers due afterwards are those to its requests, and those due before except the ones
repeated only until a downlink is received. -/
theorem c58_downlink {cfg : Cfg} {m : Mac} {e : Env} {msg : DownMsg} (h : Gets cfg m e msg) {t : CmdType}
    (h1 : t ≠ .linkADR) (h2 : t ≠ .rekey) :
    Due (process cfg e m).ctx t ↔
      (∃ c ∈ cmds cfg msg, requests m.ctx.region c = some t) ∨ (Due m.ctx t ∧ ¬ UntilDownlink t) := by
  obtain ⟨h3, _⟩ := c61_obeyed h
  have h4 := fold_due m.ctx.region m.ctx.version (e.battery % 256) e.snr h1 h2 (cmds cfg msg) (params m.ctx).retire
  rw [← h3] at h4
  have e1 : (params (process cfg e m).ctx).due t = true ↔ Due (process cfg e m).ctx t := by simp [params, h1]
  have e2 : (params m.ctx).retire.due t = true ↔ (Due m.ctx t ∧ ¬ UntilDownlink t) := by
    simp [params, Params.retire, UntilDownlink, h1]
  rw [e1, e2] at h4
  exact h4

/-- **C58**, a downlink, for LinkADRReq: an answer is due exactly if there is a request (but see `c44_truncated`). -/
theorem c58_downlink_adr_partial {cfg : Cfg} {m : Mac} {e : Env} {msg : DownMsg} (h : Gets cfg m e msg)
    (hl : (leftover cfg.v11 msg.commands).head? ≠ some 3) :
    Due (process cfg e m).ctx .linkADR ↔ ∃ c ∈ cmds cfg msg, requests m.ctx.region c = some .linkADR := by
  obtain ⟨c1, c2⟩ := c44_all_or_nothing_partial h hl
  rcases adrBlock_last (cmds cfg msg) with hb | ⟨blk, dr, pw, mask, cntl, nb, hb⟩
  · refine ⟨fun hd => absurd hd (c1 hb).2, ?_⟩
    rintro ⟨c, hc, hq⟩
    obtain ⟨pre, post, hcs, hpre, _, _⟩ := adrBlock_split (cmds cfg msg)
    have hadr : isLinkADR c = true := by
      cases c <;> simp only [requests, reduceCtorEq, Option.some.injEq] at hq <;> (try split at hq) <;> first | rfl | cases hq
    unfold adrBlock at hb
    have : ∀ l : List DownCmd, (l.dropWhile fun c => !isLinkADR c).takeWhile isLinkADR = [] → ∀ c ∈ l, isLinkADR c = false := by
      intro l
      induction l with
      | nil => intro _ c hc; cases hc
      | cons d l ih =>
        intro hbl c hc
        cases hdl : isLinkADR d with
        | true =>
          rw [List.dropWhile_cons, if_neg (by simp [hdl]), List.takeWhile_cons, if_pos hdl] at hbl
          cases hbl
        | false =>
          rw [List.dropWhile_cons, if_pos (by simp [hdl])] at hbl
          rcases List.mem_cons.mp hc with rfl | hc
          · exact hdl
          · exact ih hbl c hc
    rw [this _ hb c hc] at hadr
    cases hadr
  · refine ⟨fun _ => ?_, fun _ => (c2 _ _ _ _ _ _ hb).1⟩
    obtain ⟨pre, post, hcs, _⟩ := adrBlock_split (cmds cfg msg)
    exact ⟨.linkADR dr pw mask cntl nb, by rw [hcs, hb]; simp, rfl⟩

/-- Whether a call is a send request that is accepted. -/
def SendsData (c : Call) (st : Status) : Prop := (∃ cf p d l o, c = .data cf p d l o) ∧ Accepted st

/-- A call during which no downlink is accepted and the session is not forgotten. -/
def NoDownlink (cfg : Cfg) (m : Mac) (e : Env) (c : Call) : Prop :=
  c ≠ .forget ∧ (c = .process → ¬ ∃ f buf, Accepts cfg e m f buf)

/-- **C58**, other calls: an accepted send request (which carries all answers due, C17) retires the single-shot ones;
nothing else changes what is due. -/
theorem c58_step (cfg : Cfg) (m : Mac) (e : Env) (c : Call) (h : NoDownlink cfg m e c) (t : CmdType) :
    Due (step cfg m e c).1.ctx t ↔
      Due m.ctx t ∧ (SendsData c (step cfg m e c).2 → t ∉ singles cfg.v11) := by
  by_cases hc : c = .process
  · subst hc
    rcases process_pending cfg m e with hp | hp
    · have : ¬ SendsData .process (step cfg m e .process).2 := by rintro ⟨⟨_, _, _, _, _, h⟩, _⟩; cases h
      unfold Due
      show (process cfg e m).ctx.pendingCmds.testBit _ = true ↔ _
      rw [hp]
      exact ⟨fun h => ⟨h, fun hc => absurd hc this⟩, fun h => h.1⟩
    · exact absurd hp (h.2 rfl)
  · exact (step_api cfg e m c hc).due h.1 t

/-- A history during which no downlink is accepted and the session is not forgotten. -/
def Quiet (cfg : Cfg) : Mac → List (Env × Call) → Prop
  | _, [] => True
  | m, (e, c) :: rest => NoDownlink cfg m e c ∧ Quiet cfg (step cfg m e c).1 rest

/-- Whether a send request is accepted during a history. -/
def Sends (cfg : Cfg) : Mac → List (Env × Call) → Prop
  | _, [] => False
  | m, (e, c) :: rest => SendsData c (step cfg m e c).2 ∨ Sends cfg (step cfg m e c).1 rest

/-- **C58**: over any history without a downlink, an answer that is repeated stays due, and with it every uplink
carries it. -/
theorem c58_repeated (cfg : Cfg) (m : Mac) (l : List (Env × Call)) (h : Quiet cfg m l) (t : CmdType)
    (ht : t ∉ singles cfg.v11) : Due (run cfg m l).ctx t ↔ Due m.ctx t := by
  induction l generalizing m with
  | nil => rfl
  | cons x l ih =>
    show Due (run cfg (step cfg m x.1 x.2).1 l).ctx t ↔ _
    rw [ih _ h.2, c58_step cfg m x.1 x.2 h.1 t]
    exact ⟨fun h => h.1, fun h => ⟨h, fun _ => ht⟩⟩

/-- **C58**: over any history without a downlink, a single-shot answer is due until the first uplink, and not after
it. -/
theorem c58_once (cfg : Cfg) (m : Mac) (l : List (Env × Call)) (h : Quiet cfg m l) (t : CmdType)
    (ht : t ∈ singles cfg.v11) : Due (run cfg m l).ctx t ↔ Due m.ctx t ∧ ¬ Sends cfg m l := by
  induction l generalizing m with
  | nil => simp [run, Sends]
  | cons x l ih =>
    show Due (run cfg (step cfg m x.1 x.2).1 l).ctx t ↔ _
    rw [ih _ h.2, c58_step cfg m x.1 x.2 h.1 t]
    show _ ↔ _ ∧ ¬ (SendsData _ _ ∨ Sends cfg (step cfg m x.1 x.2).1 l)
    rw [not_or, and_assoc]
    refine and_congr_right fun _ => and_congr_left fun _ => ?_
    exact ⟨fun h hs => h hs ht, fun h hs => absurd hs h⟩

/-- The answers repeated and those sent once: together all of them. -/
theorem c58_kinds (v11 : Bool) (t : CmdType) : t ∈ singles v11 ↔
    t = .linkADR ∨ t = .devStatus ∨ t = .newChannel ∨ t = .txParamSetup ∨ t = .dutyCycle ∨
      (v11 = true ∧ (t = .adrParamSetup ∨ t = .rejoinParamSetup)) := by
  cases v11 <;> cases t <;> decide

/-- An answer that is due is in the next uplink, and one that is not is not. -/
theorem c58_carried (v11 : Bool) (s : Session) (check getTime : Bool) (t : CmdType)
    (ht : t ≠ .linkCheck ∧ t ≠ .deviceTime ∧ t ≠ .forceRejoin)
    (hv : v11 = true ∨ (t ≠ .rekey ∧ t ≠ .adrParamSetup ∧ t ≠ .rejoinParamSetup)) :
    Due s t ↔ ∃ c ∈ answers v11 s check getTime, upType c = t := by
  obtain ⟨t1, t2, t3⟩ := ht
  have hif : ∀ (p : Prop) [Decidable p] (c : UpCmd) (q : UpCmd → Prop),
      (∃ x ∈ (if p then [c] else []), q x) ↔ p ∧ q c := by
    intro p _ c q
    split <;> simp_all
  have happ : ∀ (a b : List UpCmd) (q : UpCmd → Prop), (∃ x ∈ a ++ b, q x) ↔ (∃ x ∈ a, q x) ∨ ∃ x ∈ b, q x := by
    intro a b q
    simp only [List.mem_append, or_and_right, exists_or]
  unfold answers
  simp only [happ, hif]
  cases t <;> simp_all [upType]

/-- A case of C58: RXParamSetupReq and DevStatusReq arrive; both answers are due, ... -/
def asked : Mac := obeyed [5, 0, 0xd2, 0xad, 0x84, 6]

/-- ... after an uplink that is not answered ... -/
def unanswered : List (Env × Call) := Demo.processAt [600000000] ++ [Demo.send false 600000000] ++ Demo.cycle 600000000

theorem quiet_of (cfg : Cfg) (m : Mac) (l : List (Env × Call)) (h : ∀ x ∈ l, x.2 ≠ .forget ∧ x.1.statusRx = false) :
    Quiet cfg m l := by
  induction l generalizing m with
  | nil => trivial
  | cons x l ih =>
    refine ⟨⟨(h x (by simp)).1, fun _ => ?_⟩, ih _ fun y hy => h y (List.mem_cons_of_mem _ hy)⟩
    rintro ⟨f, buf, _, _, h', _⟩
    rw [(h x (by simp)).2] at h'
    cases h'

instance (c : Call) (st : Status) : Decidable (SendsData c st) :=
  match c with
  | .data cf p d l o => decidable_of_iff (Accepted st) ⟨fun h => ⟨⟨cf, p, d, l, o, rfl⟩, h⟩, fun h => h.2⟩
  | .entropy .. | .otaa | .abp .. | .forget | .cancel | .process | .setRate .. | .setPower .. | .setADR .. | .setMaxDCycle ..
  | .addChannel .. | .maskChannel .. | .unmaskChannel .. | .radioEvent ..
  | .lateEvent .. => isFalse (by rintro ⟨⟨_, _, _, _, _, h⟩, _⟩; cases h)

instance sendsDec (cfg : Cfg) : (m : Mac) → (l : List (Env × Call)) → Decidable (Sends cfg m l)
  | _, [] => isFalse id
  | m, (e, c) :: rest =>
    have := sendsDec cfg (step cfg m e c).1 rest
    inferInstanceAs (Decidable (SendsData c (step cfg m e c).2 ∨ Sends cfg (step cfg m e c).1 rest))

/-- ... the first is still due and the second is not. -/
example : Due asked.ctx .rxParamSetup ∧ Due asked.ctx .devStatus ∧ Due (run Demo.cfg asked unanswered).ctx .rxParamSetup ∧
    ¬ Due (run Demo.cfg asked unanswered).ctx .devStatus := by
  have hg := gets [5, 0, 0xd2, 0xad, 0x84, 6] (by decide)
  have hs : Sends Demo.cfg asked unanswered := by decide +kernel
  have hr : listening.ctx.region = .eu868 := by decide +kernel
  have hq : Quiet Demo.cfg asked unanswered := quiet_of _ _ _ (by
    unfold unanswered Demo.cycle Demo.send Demo.txDone Demo.rxNone Demo.processAt Demo.at_
    simp)
  have h1 := (c58_downlink hg (t := .rxParamSetup) (by decide) (by decide)).mpr
    (Or.inl ⟨.rxParamSetup 0 0 869525000, by decide +kernel, rfl⟩)
  have h2 := (c58_downlink hg (t := .devStatus) (by decide) (by decide)).mpr (Or.inl ⟨.devStatus, by decide +kernel, rfl⟩)
  have h3 := c58_repeated _ _ _ hq .rxParamSetup (by decide)
  have h4 := c58_once _ _ _ hq .devStatus (by decide)
  have h5 : asked = process Demo.cfg (holding (carrying [5, 0, 0xd2, 0xad, 0x84, 6]) 2600000) listening := rfl
  generalize process Demo.cfg (holding (carrying [5, 0, 0xd2, 0xad, 0x84, 6]) 2600000) listening = x at *
  subst h5
  generalize run Demo.cfg asked unanswered = y at *
  exact ⟨h1, h2, h3.mpr h1, fun h => (h4.mp h).2 hs⟩

end LDL
