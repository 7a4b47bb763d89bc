import Verif.Lemmas.Mbed
import Verif.Lemmas.Settle

/-!
# Lemmas about the mbed wrapper: requests are answered
-/

namespace LDL
namespace Mbed
open Spec Spec.Mbed

/-! ### The MAC is only used in the ways C19 to C64 are about -/

/-- The method a thread is in. -/
def Pc.method : Pc → Option Method
  | .idle => none
  | .tryData m | .enter m _ | .post m _ | .kick m _ | .await m _ | .leave m _ | .outcome m | .band m | .quit m _ => some m

/-- Arguments of a request within the ranges of their C types. -/
def Req.WF : Req → Prop
  | .status c => c.WF
  | .void c => c.WF
  | _ => True

theorem method_wf {t : Nat} {m : Method} (h : Act.WF (.call t m)) : Req.WF m.req := by
  cases m <;> exact h

/-- All threads use proper arguments. -/
def Fit (s : Sys) : Prop := ∀ t m, (s.threads t).pc.method = some m → Req.WF m.req

theorem workerStep_pc {cfg : Cfg} {e : Env} {s s' : Sys} (h : s.workerStep cfg e = some s') (t : Nat) :
    (s'.threads t).pc = (s.threads t).pc := by
  unfold Sys.workerStep at h
  cases hw : s.worker with
  | waiting => simp only [hw] at h; split at h <;> cases h; rfl
  | process =>
    simp only [hw, Option.some.injEq] at h
    subst h
    show ((s.mac_ _ _).threads t).pc = _
    rw [(mac_fields s _ _).2.1]
  | check => simp only [hw, Option.some.injEq] at h; subst h; rfl
  | collect => simp only [hw, Option.some.injEq] at h; subst h; rfl
  | run l =>
    cases l with
    | nil => simp only [hw, Option.some.injEq] at h; subst h; rfl
    | cons x l =>
      obtain ⟨u, r⟩ := x
      simp only [hw, Option.some.injEq] at h
      subst h
      have ht := (mac_fields s (exec cfg e s.mac r).1 (.executed u r e (exec cfg e s.mac r).2)).2.1
      show (upd (s.mac_ _ _).threads u _ t).pc = _
      rw [ht]
      by_cases hu : t = u
      · rw [hu, upd_same]
      · rw [upd_other _ _ hu]
  | clear r a l =>
    simp only [hw, Option.some.injEq] at h
    subst h
    show ((s.clearFlags r a).threads t).pc = _
    rw [(clear_fields s r a).2.1]
  | answer l => simp only [hw, Option.some.injEq] at h; subst h; rfl
  | rearm => simp only [hw] at h; split at h <;> cases h <;> rfl

theorem goto_threads (s : Sys) (t : Nat) (m : Method) (pc : Pc) {u : Nat} {m' : Method}
    (h : ((s.goto t m pc).threads u).pc.method = some m') :
    u = t ∧ pc.method = some m' ∨ u ≠ t ∧ (s.threads u).pc.method = some m' := by
  have hset : ∀ q, ((s.setPc t q).threads u).pc.method = some m' → u = t ∧ q.method = some m' ∨
      u ≠ t ∧ (s.threads u).pc.method = some m' := by
    intro q hq
    by_cases hu : u = t
    · rw [hu] at hq
      simp only [Sys.setPc, upd_same] at hq
      exact Or.inl ⟨hu, hq⟩
    · simp only [Sys.setPc, upd_other _ _ hu] at hq
      exact Or.inr ⟨hu, hq⟩
  unfold Sys.goto at h
  split at h
  · split at h
    · exact hset _ h
    · rcases hset .idle h with ⟨_, h⟩ | h
      · cases h
      · exact Or.inr h
  · exact hset _ h

theorem after_method (m : Method) (r : Option Answer) : (m.after r).method = some m := by
  unfold Method.after
  cases m <;> simp only [] <;> (repeat' split) <;> rfl

/-- A thread stays in its method. -/
theorem threadStep_method {s s' : Sys} {t u : Nat} {m : Method} (h : s.threadStep t = some s')
    (hm : (s'.threads u).pc.method = some m) : (s.threads u).pc.method = some m := by
  have hset : ∀ (x : Sys) q, x.threads = s.threads → ((x.setPc t q).threads u).pc.method = some m →
      (q.method = some m → (s.threads t).pc.method = some m) → (s.threads u).pc.method = some m := by
    intro x q hx hq hk
    by_cases hu : u = t
    · rw [hu] at hq ⊢
      simp only [Sys.setPc, upd_same] at hq
      exact hk hq
    · simp only [Sys.setPc, upd_other _ _ hu] at hq
      rw [← hx]; exact hq
  have hgo : ∀ (x : Sys) m' q, x.threads = s.threads → ((x.goto t m' q).threads u).pc.method = some m →
      (q.method = some m → (s.threads t).pc.method = some m) → (s.threads u).pc.method = some m := by
    intro x m' q hx hq hk
    rcases goto_threads x t m' q hq with ⟨hu, hq⟩ | ⟨_, hq⟩
    · rw [hu]; exact hk hq
    · rw [← hx]; exact hq
  unfold Sys.threadStep at h
  cases hpc : (s.threads t).pc with
  | idle => rw [hpc] at h; cases h
  | tryData m' =>
    simp only [hpc] at h
    split at h <;> cases h
    · exact hset s _ rfl hm (by rw [hpc]; exact fun h => h)
    · exact hset s .idle rfl hm (by intro h; cases h)
  | enter m' late =>
    simp only [hpc] at h
    split at h <;> cases h
    exact hset s _ rfl hm (by rw [hpc]; exact fun h => h)
  | post m' late => simp only [hpc] at h; cases h; exact hset s _ rfl hm (by rw [hpc]; exact fun h => h)
  | kick m' late => simp only [hpc] at h; cases h; exact hset s _ rfl hm (by rw [hpc]; exact fun h => h)
  | await m' late =>
    simp only [hpc] at h
    split at h <;> cases h
    exact hset s _ rfl hm (by rw [hpc]; exact fun h => h)
  | leave m' late =>
    simp only [hpc] at h
    split at h <;> cases h
    · exact hset { s with queueSem := release s.queueSem } .idle rfl hm (by intro h; cases h)
    · refine hgo { s with queueSem := release s.queueSem } _ _ rfl hm ?_
      rw [after_method, hpc]; exact fun h => h
  | outcome m' =>
    simp only [hpc] at h
    split at h
    · cases hj : m'.judge (s.threads t).retval s.opFlags s.entropyValue with
      | finish r =>
        simp only [hj] at h; cases h
        exact hgo { s with opFlags := s.opFlags &&& (4294967295 ^^^ m'.mask) } _ _ rfl hm (by rw [hpc]; exact fun h => h)
      | again =>
        simp only [hj] at h; cases h
        exact hset { s with opFlags := s.opFlags &&& (4294967295 ^^^ m'.mask) } _ rfl hm (by rw [hpc]; exact fun h => h)
      | giveUp =>
        simp only [hj] at h; cases h
        exact hset { s with opFlags := s.opFlags &&& (4294967295 ^^^ m'.mask) } _ rfl hm (by rw [hpc]; exact fun h => h)
    · cases h
  | band m' =>
    simp only [hpc] at h
    split at h <;> cases h
    exact hgo { s with bandFlags := 0 } _ _ rfl hm (by rw [hpc]; exact fun h => h)
  | quit m' r =>
    simp only [hpc] at h; cases h
    exact hset { s with dataSem := release s.dataSem } .idle rfl hm (by intro h; cases h)

theorem Fit.act {cfg : Cfg} {s s' : Sys} (h : Fit s) (a : Act) (hw : Act.WF a) (hs : s.act cfg a = some s') : Fit s' := by
  intro u m hm
  cases a with
  | call t m' =>
    simp only [Sys.act] at hs
    split at hs <;> cases hs
    by_cases hu : u = t
    · rw [hu] at hm
      simp only [upd_same] at hm
      have : m = m' := by
        split at hm <;> simpa [Pc.method] using hm.symm
      rw [this]
      exact method_wf hw
    · simp only [upd_other _ _ hu] at hm
      exact h u m hm
  | thread t => exact h u m (threadStep_method hs hm)
  | expire t =>
    simp only [Sys.act, Sys.expire] at hs
    split at hs <;> cases hs
    rename_i hpc
    by_cases hu : u = t
    · rw [hu] at hm
      simp only [Sys.setPc, upd_same, Pc.method, Option.some.injEq] at hm
      rw [← hm]; trivial
    · simp only [Sys.setPc, upd_other _ _ hu] at hm
      exact h u m hm
  | worker e => rw [workerStep_pc hs u] at hm; exact h u m hm
  | timer =>
    simp only [Sys.act] at hs
    split at hs <;> cases hs
    exact h u m hm
  | radio e =>
    simp only [Sys.act, Option.some.injEq] at hs
    subst hs
    rw [show (s.mac_ (step cfg s.mac e (.radioEvent e.ticks)).1 (.interrupted e)).threads = s.threads from
      (mac_fields s _ _).2.1] at hm
    exact h u m hm

theorem exec_reachable {cfg : Cfg} {e : Env} {m : Mac} (h : Reachable cfg m) (r : Req) (hr : Req.WF r) :
    Reachable cfg (exec cfg e m r).1 := by
  cases r <;> first | exact h.step e _ hr | exact h

theorem threadStep_mac {s s' : Sys} {t : Nat} (h : s.threadStep t = some s') : s'.mac = s.mac := by
  have hgo : ∀ (x : Sys) m q, (x.goto t m q).mac = x.mac := by
    intro x m q
    unfold Sys.goto
    split
    · split <;> rfl
    · rfl
  unfold Sys.threadStep at h
  cases hpc : (s.threads t).pc <;> simp only [hpc] at h <;> (repeat' split at h) <;>
    first | (cases h; done) | (cases h; first | rfl | exact hgo _ _ _)

/-- The MAC inside the wrapper is in a state reachable by proper use of its API. -/
theorem Inv.mac {cfg : Cfg} {m0 : Mac} {s s' : Sys} (h : Inv Method.req cfg m0 s) (hf : Fit s) (hr : Reachable cfg s.mac) (a : Act)
    (hs : s.act cfg a = some s') : Reachable cfg s'.mac := by
  cases a with
  | call t m =>
    simp only [Sys.act] at hs
    split at hs <;> cases hs
    exact hr
  | thread t => rw [threadStep_mac hs]; exact hr
  | expire t =>
    simp only [Sys.act, Sys.expire] at hs
    split at hs <;> cases hs
    exact hr
  | timer =>
    simp only [Sys.act] at hs
    split at hs <;> cases hs
    exact hr
  | radio e =>
    simp only [Sys.act, Option.some.injEq] at hs
    subst hs
    show Reachable cfg (s.mac_ _ _).mac
    rw [(mac_fields s _ _).1]
    exact hr.step e _ (by show u32 e.now < _; unfold u32; omega)
  | worker e =>
    simp only [Sys.act, Sys.workerStep] at hs
    cases hw : s.worker with
    | waiting => simp only [hw] at hs; split at hs <;> cases hs; exact hr
    | process =>
      simp only [hw, Option.some.injEq] at hs
      subst hs
      show Reachable cfg (s.mac_ _ _).mac
      rw [(mac_fields s _ _).1]
      exact hr.step e .process trivial
    | check => simp only [hw, Option.some.injEq] at hs; subst hs; exact hr
    | collect => simp only [hw, Option.some.injEq] at hs; subst hs; exact hr
    | run l =>
      cases l with
      | nil => simp only [hw, Option.some.injEq] at hs; subst hs; exact hr
      | cons x l =>
        obtain ⟨u, r⟩ := x
        obtain ⟨m, late, p, hpc, hreq, _⟩ := h.job hw
        simp only [hw, Option.some.injEq] at hs
        subst hs
        show Reachable cfg (s.mac_ _ _).mac
        rw [(mac_fields s _ _).1]
        refine exec_reachable hr r ?_
        simp only [] at hreq hpc
        rw [hreq]
        cases late with
        | true => trivial
        | false => exact hf u m (by rcases hpc with h | h <;> rw [h] <;> rfl)
    | clear r a l =>
      simp only [hw, Option.some.injEq] at hs
      subst hs
      show Reachable cfg (s.clearFlags r a).mac
      rw [(clear_fields s r a).1]
      exact hr
    | answer l => simp only [hw, Option.some.injEq] at hs; subst hs; exact hr
    | rearm => simp only [hw] at hs; split at hs <;> cases hs <;> exact hr

theorem reaches_reachable {cfg : Cfg} {ok : Act → Prop} {m0 : Mac} {s : Sys} (h : Reaches cfg ok m0 s) :
    Fit s ∧ Reachable cfg s.mac := by
  induction h with
  | start region arg e hs ha hm => exact ⟨fun _ _ h => (by cases h), Reachable.init region arg e hs ha⟩
  | act h a hw ho hs ih =>
    have hi : Inv Method.req cfg m0 _ := reaches_inv (fun _ _ _ => rfl) h
    exact ⟨ih.1.act a hw hs, hi.mac ih.1 ih.2 a hs⟩

/-! ### How far the worker is from answering -/

/-- A bound for the number of steps until the thread that waits is told. -/
def rank (T : Nat) (s : Sys) : Nat :=
  if s.status > 0 then 0
  else match s.worker with
    | .answer _ => 1
    | .clear .. => 2
    | .run (_ :: _) => 3
    | .collect => 4
    | .check => 2 * reasons T s.mac + 5
    | .process => if reasons T s.mac = 0 then 14 else 2 * reasons T s.mac + 4
    | .waiting => 235
    | .rearm => 236
    | .run [] => 237

theorem rank_le (T : Nat) (s : Sys) : rank T s ≤ 237 := by
  have h := reasons_le T s.mac
  unfold rank
  split
  · omega
  · split <;> first | omega | (split <;> omega)

theorem rank_zero {T : Nat} {s : Sys} (h : rank T s = 0) : s.status > 0 := by
  unfold rank at h
  by_cases hs : s.status > 0
  · exact hs
  · rw [if_neg hs] at h
    split at h <;> first | omega | (split at h <;> omega)

/-- What is known while a thread waits and has not been told. -/
theorem Inv.waits {cfg : Cfg} {m0 : Mac} {s : Sys} (h : Inv mean cfg m0 s) {t : Nat} {m : Method} {late : Bool}
    (hpc : (s.threads t).pc = .await m late) (hst : s.status = 0) :
    (s.worker.free = true ∧ s.queue ≠ [] ∧ (s.worker = .waiting → s.work > 0)) ∨ s.worker.free = false := by
  obtain ⟨p, hp, hl⟩ := h.phases t
  unfold Local at hl
  rw [hpc] at hl
  simp only [] at hl
  cases hf : s.worker.free
  · exact Or.inr rfl
  · left
    have hq : s.queue ≠ [] := by
      rcases hl with ⟨⟨_, h2⟩, _⟩ | ⟨⟨_, h2⟩, _⟩
      · rcases h2 with ⟨h2, _⟩ | ⟨_, h2⟩
        · rw [h2]; simp
        · rw [h2] at hf; cases hf
      · rcases h2 with ⟨_, ⟨r, a, h2⟩ | h2⟩ | ⟨h2, _⟩
        · rw [h2] at hf; cases hf
        · rw [h2] at hf; cases hf
        · omega
    refine ⟨rfl, hq, fun hw => ?_⟩
    rcases h.noticed t m late hpc hq with h2 | h2 | h2 | h2
    · exact h2
    all_goals rw [hw] at h2; cases h2

/-- The worker can go on as long as a thread waits. -/
theorem worker_goes_on {cfg : Cfg} {m0 : Mac} {s : Sys} (h : Inv mean cfg m0 s) {t : Nat} {m : Method} {late : Bool}
    (hpc : (s.threads t).pc = .await m late) (hst : s.status = 0) (e : Env) : (s.workerStep cfg e).isSome = true := by
  have hw := h.waits hpc hst
  unfold Sys.workerStep
  cases hk : s.worker with
  | waiting =>
    rcases hw with ⟨_, _, hw⟩ | hw
    · simp only []; rw [if_pos (hw hk)]; rfl
    · rw [hk] at hw; cases hw
  | run l => cases l with | nil => rfl | cons x l => obtain ⟨u, r⟩ := x; rfl
  | rearm => simp only []; split <;> rfl
  | _ => rfl

/-- Each step of the worker brings it nearer. -/
theorem rank_worker {cfg : Cfg} (ht : 512 ≤ cfg.tps ∧ cfg.tps ≤ 16000000) {m0 : Mac} {s s' : Sys}
    (h : Inv mean cfg m0 s) (hr : Reachable cfg s.mac) {t : Nat} {m : Method} {late : Bool}
    (hpc : (s.threads t).pc = .await m late) (hst : s.status = 0) {e : Env} (hl : e.later = e.ticks) (he : ¬OnEdge e.ticks s.mac)
    (hs : s.workerStep cfg e = some s') : rank e.ticks s' < rank e.ticks s := by
  have hb := reasons_le e.ticks s.mac
  have hw := h.waits hpc hst
  unfold Sys.workerStep at hs
  unfold rank
  rw [if_neg (show ¬s.status > 0 by omega)]
  cases hk : s.worker with
  | waiting =>
    simp only [hk] at hs
    split at hs <;> cases hs
    simp only []
    rw [if_neg (by omega)]
    split <;> omega
  | process =>
    simp only [hk, Option.some.injEq] at hs
    subst hs
    obtain ⟨f1, _, _, _, _, f6, _⟩ := mac_fields s (LDL.process cfg e s.mac) (.processed e)
    simp only [f1, f6]
    rw [if_neg (by omega)]
    obtain ⟨h1, h2⟩ := process_reasons ht e hl hr.reach.opOk hr.latch
    split <;> omega
  | check =>
    simp only [hk, Option.some.injEq] at hs
    subst hs
    simp only []
    rw [if_neg (by omega)]
    by_cases h0 : ticksUntilNextEvent e s.mac = 0
    · rw [if_pos h0]
      simp only []
      have : reasons e.ticks s.mac ≠ 0 := fun hz => at_rest hz he h0
      rw [if_neg this]; omega
    · rw [if_neg h0]; simp only []; omega
  | collect =>
    simp only [hk, Option.some.injEq] at hs
    subst hs
    simp only []
    rw [if_neg (by omega)]
    rcases hw with ⟨_, hq, _⟩ | hw
    · cases hl : s.queue with
      | nil => exact absurd hl hq
      | cons x l => simp
    · rw [hk] at hw; cases hw
  | run l =>
    cases l with
    | nil =>
      simp only [hk, Option.some.injEq] at hs
      subst hs
      simp only []
      rw [if_neg (by omega)]; omega
    | cons x l =>
      obtain ⟨u, r⟩ := x
      simp only [hk, Option.some.injEq] at hs
      subst hs
      obtain ⟨_, _, _, _, _, f6, _⟩ := mac_fields s (exec cfg e s.mac r).1 (.executed u r e (exec cfg e s.mac r).2)
      simp only [f6]
      rw [if_neg (by omega)]; omega
  | clear r a l =>
    simp only [hk, Option.some.injEq] at hs
    subst hs
    simp only []
    split <;> omega
  | answer l =>
    simp only [hk, Option.some.injEq] at hs
    subst hs
    simp only []
    rw [if_pos (by unfold release; omega)]; omega
  | rearm =>
    simp only [hk] at hs
    split at hs <;> cases hs <;> simp only [] <;> rw [if_neg (by omega)] <;> omega

/-- Another thread does not disturb it. -/
theorem threadStep_aside {s s' : Sys} {u : Nat} (hu : (s.threads u).pc.holding = false) (h : s.threadStep u = some s') :
    s'.status = s.status ∧ s'.worker = s.worker ∧ s'.mac = s.mac ∧ ∀ t, t ≠ u → s'.threads t = s.threads t := by
  have hset : ∀ (x : Sys) q t, t ≠ u → (x.setPc u q).threads t = x.threads t := by
    intro x q t ht
    simp only [Sys.setPc, upd_other _ _ ht]
  have hgo : ∀ (x : Sys) m q, (x.goto u m q).status = x.status ∧ (x.goto u m q).worker = x.worker ∧
      (x.goto u m q).mac = x.mac ∧ ∀ t, t ≠ u → (x.goto u m q).threads t = x.threads t := by
    intro x m q
    unfold Sys.goto
    split
    · split <;> exact ⟨rfl, rfl, rfl, hset _ _⟩
    · exact ⟨rfl, rfl, rfl, hset _ _⟩
  unfold Sys.threadStep at h
  cases hpc : (s.threads u).pc <;> rw [hpc] at hu <;> simp only [hpc] at h <;> (try (cases hu; done)) <;>
    (repeat' split at h) <;>
    first | (cases h; done) | (cases h; first | exact ⟨rfl, rfl, rfl, hset _ _⟩ | exact hgo _ _ _)

/-- **A thread that waits is told.** -/
theorem told {cfg : Cfg} (ht : 512 ≤ cfg.tps ∧ cfg.tps ≤ 16000000) {m0 : Mac} {t : Nat} {m : Method}
    {late : Bool} : ∀ (l : List Act) (T : Nat) (s s' : Sys), Inv Method.req cfg m0 s → Fit s → Reachable cfg s.mac →
      (s.threads t).pc = .await m late → (∀ a ∈ l, Act.WF a) → acts cfg s l = some s' →
      rank T s + 237 * (interrupts l + clockMoves T l) ≤ workerSteps l →
      ∃ l1 l2 s1, l = l1 ++ l2 ∧ acts cfg s l1 = some s1 ∧ (s1.threads t).pc = .await m late ∧
        (s1.status > 0 ∨ ∃ e l3, l2 = .worker e :: l3 ∧ OnEdge e.ticks s1.mac) := by
  intro l
  induction l with
  | nil =>
    intro T s s' hi hf hr hpc hw hs hk
    exact ⟨[], [], s, rfl, rfl, hpc, Or.inl (rank_zero (T := T) (by simp only [interrupts, workerSteps, clockMoves] at hk; omega))⟩
  | cons a l ih =>
    intro T s s' hi hf hr hpc hw hs hk
    by_cases hst : s.status > 0
    · exact ⟨[], a :: l, s, rfl, rfl, hpc, Or.inl hst⟩
    have hst' : s.status = 0 := by omega
    simp only [acts, List.foldlM_cons] at hs
    cases ha : s.act cfg a with
    | none => rw [ha] at hs; cases hs
    | some s2 =>
      rw [ha] at hs
      simp only [Option.bind_eq_bind, Option.bind_some] at hs
      have hwa := hw a (List.mem_cons_self ..)
      have hi2 := hi.act a (fun _ _ _ => rfl) ha
      have hf2 := hf.act a hwa ha
      have hr2 := hi.mac hf hr a ha
      have hhold : ∀ u, u ≠ t → (s.threads u).pc.holding = false := by
        intro u hu
        cases hx : (s.threads u).pc.holding
        · rfl
        · exact absurd (hi.line.unique hx (by rw [hpc]; rfl)) hu
      have key : ∀ T, (s2.threads t).pc = .await m late →
          rank T s2 + 237 * (interrupts l + clockMoves T l) ≤ workerSteps l →
          ∃ l1 l2 s1, a :: l = l1 ++ l2 ∧ acts cfg s l1 = some s1 ∧ (s1.threads t).pc = .await m late ∧
            (s1.status > 0 ∨ ∃ e l3, l2 = .worker e :: l3 ∧ OnEdge e.ticks s1.mac) := by
        intro T hpc2 hk2
        obtain ⟨l1, l2, s1, h1, h2, h3, h4⟩ := ih T s2 s' hi2 hf2 hr2 hpc2 (fun b hb => hw b (List.mem_cons_of_mem _ hb))
          hs hk2
        refine ⟨a :: l1, l2, s1, by rw [h1]; rfl, ?_, h3, h4⟩
        simp only [acts, List.foldlM_cons, ha, Option.bind_eq_bind, Option.bind_some]
        exact h2
      have same : s2.status = s.status → s2.worker = s.worker → s2.mac = s.mac → rank T s2 = rank T s := by
        intro h1 h2 h3
        unfold rank
        rw [h1, h2, h3]
      cases a with
      | call u m' =>
        simp only [interrupts, workerSteps, clockMoves] at hk
        simp only [Sys.act] at ha
        split at ha <;> cases ha
        rename_i hidle
        have hu : t ≠ u := by rintro rfl; rw [hpc] at hidle; cases hidle
        refine key T ?_ ?_
        · simp only [upd_other _ _ hu]; exact hpc
        · rw [same rfl rfl rfl]; exact hk
      | thread u =>
        simp only [interrupts, workerSteps, clockMoves] at hk
        by_cases hu : u = t
        · subst hu
          simp only [Sys.act, Sys.threadStep, hpc] at ha
          rw [if_neg hst] at ha
          cases ha
        · obtain ⟨h1, h2, h3, h4⟩ := threadStep_aside (hhold u hu) ha
          refine key T ?_ ?_
          · rw [h4 t (fun h => hu h.symm)]; exact hpc
          · rw [same h1 h2 h3]; exact hk
      | expire u =>
        simp only [interrupts, workerSteps, clockMoves] at hk
        simp only [Sys.act, Sys.expire] at ha
        split at ha <;> cases ha
        rename_i hout
        have hu : t ≠ u := by rintro rfl; rw [hpc] at hout; cases hout
        refine key T ?_ ?_
        · simp only [Sys.setPc, upd_other _ _ hu]; exact hpc
        · rw [same rfl rfl rfl]; exact hk
      | timer =>
        simp only [interrupts, workerSteps, clockMoves] at hk
        simp only [Sys.act] at ha
        split at ha <;> cases ha
        exact key T hpc (by rw [same rfl rfl rfl]; exact hk)
      | radio e =>
        simp only [interrupts, workerSteps, clockMoves] at hk
        have := rank_le T s2
        refine key T ?_ (by omega)
        simp only [Sys.act, Option.some.injEq] at ha
        subst ha
        show ((s.mac_ _ _).threads t).pc = _
        rw [(mac_fields s _ _).2.1]; exact hpc
      | worker e =>
        simp only [interrupts, workerSteps, clockMoves] at hk
        by_cases hE : OnEdge e.ticks s.mac
        · exact ⟨[], .worker e :: l, s, rfl, rfl, hpc, Or.inr ⟨e, l, rfl, hE⟩⟩
        have hle := rank_le e.ticks s
        have hpos : 0 < rank T s := by
          refine Nat.pos_of_ne_zero fun h0 => ?_
          have := rank_zero h0
          omega
        refine key e.later ?_ ?_
        · rw [workerStep_pc ha t]; exact hpc
        · by_cases hl : e.later = e.ticks
          · have := rank_worker ht hi hr hpc hst' hl hE ha
            rw [if_pos hl] at hk
            rw [hl] at hk ⊢
            split at hk
            · next heT => subst heT; omega
            · omega
          · have := rank_le e.later s2
            rw [if_neg hl] at hk
            split at hk <;> omega

/-- The worker alone. -/
theorem told_alone {cfg : Cfg} (ht : 512 ≤ cfg.tps ∧ cfg.tps ≤ 16000000) {m0 : Mac} (T : Nat) {t : Nat} {m : Method}
    {late : Bool} : ∀ (n : Nat) (s : Sys) (es : Nat → Env), (∀ i, (es i).ticks = T ∧ (es i).later = T) → Inv Method.req cfg m0 s → Fit s →
      Reachable cfg s.mac → (s.threads t).pc = .await m late → rank T s ≤ n →
      ∃ k ≤ n, ∃ s1, acts cfg s ((List.range k).map fun i => .worker (es i)) = some s1 ∧ (s1.threads t).pc = .await m late ∧
        (s1.status > 0 ∨ OnEdge T s1.mac) := by
  intro n
  induction n with
  | zero =>
    intro s es he hi hf hr hpc hn
    exact ⟨0, Nat.le_refl _, s, rfl, hpc, Or.inl (rank_zero (T := T) (by omega))⟩
  | succ n ih =>
    intro s es he hi hf hr hpc hn
    by_cases hst : s.status > 0
    · exact ⟨0, Nat.zero_le _, s, rfl, hpc, Or.inl hst⟩
    by_cases hE : OnEdge T s.mac
    · exact ⟨0, Nat.zero_le _, s, rfl, hpc, Or.inr hE⟩
    have hst' : s.status = 0 := by omega
    obtain ⟨s2, hs2⟩ := Option.isSome_iff_exists.1 (worker_goes_on hi hpc hst' (es 0))
    have hd := rank_worker ht hi hr hpc hst' ((he 0).2.trans (he 0).1.symm) (by rw [(he 0).1]; exact hE) hs2
    rw [(he 0).1] at hd
    have ha : s.act cfg (.worker (es 0)) = some s2 := hs2
    obtain ⟨k, hk, s1, h1, h2, h3⟩ := ih s2 (fun i => es (i + 1)) (fun i => he (i + 1)) (hi.act _ (fun _ _ _ => rfl) ha)
      (hf.act (.worker (es 0)) trivial ha) (hi.mac hf hr _ ha) (by rw [workerStep_pc hs2 t]; exact hpc) (by omega)
    refine ⟨k + 1, by omega, s1, ?_, h2, h3⟩
    rw [List.range_succ_eq_map, List.map_cons, List.map_map]
    simp only [acts, List.foldlM_cons, ha, Option.bind_eq_bind, Option.bind_some]
    exact h1

/-- **There is always someone who can go on** while a thread wants to call the MAC. -/
theorem no_deadlock {cfg : Cfg} {m0 : Mac} {s : Sys} (h : Inv mean cfg m0 s) {t : Nat}
    (hpc : ∀ m, (s.threads t).pc ≠ .outcome m ∧ (s.threads t).pc ≠ .band m) (hi : (s.threads t).pc ≠ .idle) (e : Env) :
    (∃ u, (s.threadStep u).isSome = true) ∨ (s.workerStep cfg e).isSome = true := by
  have hold : ∀ u, (s.threads u).pc.holding = true →
      (∃ u, (s.threadStep u).isSome = true) ∨ (s.workerStep cfg e).isSome = true := by
    intro u hu
    cases hp : (s.threads u).pc with
    | post m late => left; refine ⟨u, ?_⟩; unfold Sys.threadStep; simp only [hp]; rfl
    | kick m late => left; refine ⟨u, ?_⟩; unfold Sys.threadStep; simp only [hp]; rfl
    | leave m late => left; refine ⟨u, ?_⟩; unfold Sys.threadStep; simp only [hp]; split <;> rfl
    | await m late =>
      by_cases hs : s.status > 0
      · left; refine ⟨u, ?_⟩; unfold Sys.threadStep; simp only [hp]; rw [if_pos hs]; rfl
      · right; exact worker_goes_on h hp (by omega) e
    | _ => rw [hp] at hu; cases hu
  cases hp : (s.threads t).pc with
  | idle => exact absurd hp hi
  | tryData m => left; refine ⟨t, ?_⟩; unfold Sys.threadStep; simp only [hp]; split <;> rfl
  | quit m r => left; refine ⟨t, ?_⟩; unfold Sys.threadStep; simp only [hp]; rfl
  | outcome m => exact absurd hp (hpc m).1
  | band m => exact absurd hp (hpc m).2
  | enter m late =>
    rcases h.line with ⟨h1, _⟩ | ⟨_, u, h2, _⟩
    · left; refine ⟨t, ?_⟩; unfold Sys.threadStep; simp only [hp]; rw [if_pos (by omega)]; rfl
    · exact hold u h2
  | _ => exact hold t (by rw [hp]; rfl)

end Mbed
end LDL
