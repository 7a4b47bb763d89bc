import Verif.Lemmas.MbedLive
import Verif.Lemmas.Observe

/-!
# Lemmas about the mbed wrapper: the outcome of blocking methods
-/

namespace LDL
namespace Mbed
open Spec Spec.Mbed

/-! ### Only one thread uses blocking methods -/

/-- All threads but `t` are in methods that do not block. -/
def Calm (t : Nat) (s : Sys) : Prop :=
  ∀ u m, (s.threads u).pc.method = some m → blocking m = true → u = t ∧ m ≠ .otaa true

theorem Calm.act {t : Nat} {cfg : Cfg} {s s' : Sys} (h : Calm t s) (a : Act) (ho : SoleUser t a)
    (hs : s.act cfg a = some s') : Calm t s' := by
  intro u m hm hb
  cases a with
  | call v m' =>
    simp only [Sys.act] at hs
    split at hs <;> cases hs
    by_cases hu : u = v
    · rw [hu] at hm ⊢
      simp only [upd_same] at hm
      have : m = m' := by
        split at hm <;> simpa [Pc.method] using hm.symm
      rw [this] at hb ⊢
      exact ho hb
    · simp only [upd_other _ _ hu] at hm
      exact h u m hm hb
  | thread v => exact h u m (threadStep_method hs hm) hb
  | expire v =>
    simp only [Sys.act, Sys.expire] at hs
    split at hs <;> cases hs
    rename_i hpc
    exact absurd rfl (h v (.otaa true) (by rw [hpc]; rfl) rfl).2
  | worker e => rw [workerStep_pc hs u] at hm; exact h u m hm hb
  | timer =>
    simp only [Sys.act] at hs
    split at hs <;> cases hs
    exact h u m hm hb
  | radio e =>
    simp only [Sys.act, Option.some.injEq] at hs
    subst hs
    rw [show (s.mac_ (step cfg s.mac e (.radioEvent e.ticks)).1 (.interrupted e)).threads = s.threads from
      (mac_fields s _ _).2.1] at hm
    exact h u m hm hb

theorem isData_blocking {m : Method} (h : m.isData = true) : blocking m = true := by cases m <;> first | rfl | cases h

/-! ### What is owed -/

/-- The operation in progress. -/
def _root_.LDL.Spec.Mbed.Owed.kind : Owed → Option Kind
  | .running m a => begins m a
  | _ => none

theorem answer_kind (m : Method) (a : Answer) : (Owed.answer m a).kind = begins m a := by
  unfold Owed.answer
  split
  · rfl
  · rename_i h
    cases hb : begins m a
    · rfl
    · rw [hb] at h; exact absurd rfl h

/-- The method is about to call the MAC. -/
def Asking (m : Method) (p : Owed) : Prop :=
  p = .asked m ∨ ∃ a ev, p = .over m a ev ∧ displaced a ev = true

/-- The MAC has answered. -/
def Held (m : Method) (retval : Option Answer) (flags value : Nat) (p : Owed) : Prop :=
  ∃ a, retval = some a ∧
    (p = .answer m a ∧ flags = 0 ∨
      ∃ ev k, begins m a = some k ∧ ends k ev = true ∧ p = .over m a ev ∧ flags = flagOf ev ∧ ∀ v, ev = .entropy v → value = v)

/-- What is known of the thread. -/
def Mine (th : Thread) (flags value : Nat) (unrun : Prop) (p : Owed) : Prop :=
  match th.pc with
  | .idle => p = .out ∧ flags = 0
  | .tryData m => p = .asked m ∧ flags = 0
  | .enter m late | .post m late =>
    late = false ∧ (blocking m = false ∧ p = .out ∧ flags = 0 ∨ blocking m = true ∧ Asking m p ∧ flags = 0)
  | .kick m late | .await m late =>
    late = false ∧ (blocking m = false ∧ p = .out ∧ flags = 0 ∨
      blocking m = true ∧ (unrun → Asking m p ∧ flags = 0) ∧ (¬unrun → Held m th.retval flags value p))
  | .leave m late =>
    late = false ∧ (blocking m = false ∧ p = .out ∧ flags = 0 ∨ blocking m = true ∧ Held m th.retval flags value p)
  | .outcome m => Held m th.retval flags value p
  | .band m => p = .refused m (.status .noChannel) ∧ flags = 0
  | .quit m r => flags = 0 ∧ ((∃ a, p = .refused m a ∧ r = .answer a) ∨
      ∃ a ev, p = .over m a ev ∧ displaced a ev = false ∧ r = verdict ev)

/-- A request is in the queue or about to run. -/
def Unrun (s : Sys) : Prop := s.queue ≠ [] ∨ ∃ x l, s.worker = .run (x :: l)

/-- Whether the flags are cleared after a request. -/
def clears : Req → Answer → Bool
  | .status (.data ..), .status .ok => true
  | .status .otaa, .status .ok => true
  | _, _ => false

/-- The thread is in a data service, and holds the semaphore. -/
def InData (pc : Pc) : Prop := ∃ m, pc.method = some m ∧ m.isData = true ∧ pc ≠ .tryData m

/-- The invariant. -/
structure Owes (t : Nat) (s : Sys) (p : Owed) : Prop where
  log : owed t s.log = some p
  kind : kindOf s.mac.op = p.kind
  mine : Mine (s.threads t) s.opFlags s.entropyValue (Unrun s) p
  fresh : ∀ r a l, s.worker = .clear r a l → s.opFlags = 0 ∨ clears r a = false
  sem : s.dataSem = 0 → InData (s.threads t).pc

theorem owed_append (t : Nat) (a b : List Entry) : owed t (a ++ b) = (owed t a).bind fun p => b.foldlM (owe t) p := by
  simp [owed, List.foldlM_append]

theorem owed_snoc {t : Nat} {l : List Entry} {p q : Owed} (h : owed t l = some p) {x : Entry} (hx : owe t p x = some q) :
    owed t (l ++ [x]) = some q := by
  rw [owed_append, h]
  simp [hx]

/-- Away from the places where it matters, it does not matter whether the request has run. -/
theorem Mine.unrun {th : Thread} {f v : Nat} {a b : Prop} {p : Owed} (h : Mine th f v a p)
    (hab : (∃ m late, th.pc = .kick m late ∨ th.pc = .await m late) → (a ↔ b)) : Mine th f v b p := by
  unfold Mine at h ⊢
  cases hp : th.pc <;> rw [hp] at h hab <;> simp only [] at h ⊢ <;> try exact h
  · have := hab ⟨_, _, Or.inl rfl⟩
    rw [← this]; exact h
  · have := hab ⟨_, _, Or.inr rfl⟩
    rw [← this]; exact h

/-! ### Events -/

theorem flagOf_quiet {ev : Event} (h : terminal ev = false) : flagOf ev = 0 := by
  cases ev <;> first | rfl | cases h

/-- Events of a call of the MAC that ends no operation or the one in progress. -/
theorem events_owed (t : Nat) : ∀ (l : List Event) (s : Sys) (p : Owed) (k : Option Kind),
    observeEvents p.kind l = some k →
    (((l.map Entry.event).foldlM (owe t) p = some p ∧ p.kind = k ∧ (l.foldl Sys.handle s).opFlags = s.opFlags ∧
        (l.foldl Sys.handle s).entropyValue = s.entropyValue)) ∨
    (∃ m a ev k', p = .running m a ∧ begins m a = some k' ∧ ends k' ev = true ∧ k = none ∧
      (l.map Entry.event).foldlM (owe t) p = some (.over m a ev) ∧
      (l.foldl Sys.handle s).opFlags = s.opFlags ||| flagOf ev ∧
      ∀ v, ev = .entropy v → (l.foldl Sys.handle s).entropyValue = v) := by
  intro l
  induction l with
  | nil =>
    intro s p k h
    simp only [observeEvents, Option.some.injEq] at h
    exact Or.inl ⟨rfl, h, rfl, rfl⟩
  | cons ev l ih =>
    intro s p k h
    simp only [observeEvents, observeEvent] at h
    cases ht : terminal ev
    · simp only [ht, Bool.false_eq_true, if_false] at h
      have ho : owe t p (.event ev) = some p := by simp [owe, ht]
      have hf := flagOf_quiet ht
      have h1 : (s.handle ev).opFlags = s.opFlags := by simp [Sys.handle, hf]
      have h2 : (s.handle ev).entropyValue = s.entropyValue := by
        unfold Sys.handle
        cases ev <;> first | rfl | cases ht
      rcases ih (s.handle ev) p k h with ⟨g1, g2, g3, g4⟩ | ⟨m, a, ev', k', g1, g2, g3, g4, g5, g6, g7⟩
      · left
        refine ⟨?_, g2, ?_, ?_⟩
        · simp only [List.map_cons, List.foldlM_cons, ho]; exact g1
        · simp only [List.foldl_cons]; rw [g3, h1]
        · simp only [List.foldl_cons]; rw [g4, h2]
      · right
        refine ⟨m, a, ev', k', g1, g2, g3, g4, ?_, ?_, ?_⟩
        · simp only [List.map_cons, List.foldlM_cons, ho]; exact g5
        · simp only [List.foldl_cons]; rw [g6, h1]
        · simp only [List.foldl_cons]; exact g7
    · simp only [ht, if_true] at h
      cases hk : p.kind with
      | none => rw [hk] at h; simp at h
      | some k1 =>
        rw [hk] at h
        simp only [] at h
        cases he : ends k1 ev
        · rw [he] at h; simp at h
        · rw [he] at h
          simp only [if_true] at h
          cases p with
          | running m a =>
            have ho : owe t (.running m a) (.event ev) = some (.over m a ev) := by simp [owe, ht]
            right
            rcases ih (s.handle ev) (.over m a ev) k h with ⟨g1, g2, g3, g4⟩ | ⟨m', a', ev', k', g1, _⟩
            · refine ⟨m, a, ev, k1, rfl, hk, he, g2.symm, ?_, ?_, ?_⟩
              · simp only [List.map_cons, List.foldlM_cons, ho]; exact g1
              · simp only [List.foldl_cons]; rw [g3]; rfl
              · intro v hv
                simp only [List.foldl_cons]; rw [g4, hv]; rfl
            · cases g1
          | _ => cases hk

/-- An operation in progress belongs to a thread that waits for it. -/
theorem Mine.over {th : Thread} {f v : Nat} {u : Prop} {m : Method} {a : Answer} (h : Mine th f v u (.running m a)) {ev : Event}
    {k : Kind} {f' v' : Nat} (hb : begins m a = some k) (he : ends k ev = true) (hf : f' = f ||| flagOf ev)
    (hv : ∀ x, ev = .entropy x → v' = x) : Mine th f' v' u (.over m a ev) := by
  have held : ∀ m', Held m' th.retval f v (.running m a) → Held m' th.retval f' v' (.over m a ev) := by
    rintro m' ⟨a', h1, ⟨h2, h3⟩ | ⟨_, _, _, _, h2, _⟩⟩
    · have : m' = m ∧ a' = a := by
        unfold Owed.answer at h2
        split at h2 <;> cases h2
        exact ⟨rfl, rfl⟩
      obtain ⟨rfl, rfl⟩ := this
      refine ⟨a', h1, Or.inr ⟨ev, k, hb, he, rfl, ?_, hv⟩⟩
      rw [hf, h3, Nat.zero_or]
    · cases h2
  have ask : ∀ m', ¬Asking m' (.running m a) := by
    rintro m' (h | ⟨_, _, h, _⟩) <;> cases h
  unfold Mine at h ⊢
  cases hp : th.pc <;> rw [hp] at h <;> simp only [] at h ⊢
  · cases h.1
  · cases h.1
  · rcases h with ⟨_, ⟨_, h, _⟩ | ⟨_, h, _⟩⟩
    · cases h
    · exact absurd h (ask _)
  · rcases h with ⟨_, ⟨_, h, _⟩ | ⟨_, h, _⟩⟩
    · cases h
    · exact absurd h (ask _)
  · rcases h with ⟨h0, ⟨_, h, _⟩ | ⟨h, h1, h2⟩⟩
    · cases h
    · exact ⟨h0, Or.inr ⟨h, fun hu => absurd (h1 hu).1 (ask _), fun hu => held _ (h2 hu)⟩⟩
  · rcases h with ⟨h0, ⟨_, h, _⟩ | ⟨h, h1, h2⟩⟩
    · cases h
    · exact ⟨h0, Or.inr ⟨h, fun hu => absurd (h1 hu).1 (ask _), fun hu => held _ (h2 hu)⟩⟩
  · rcases h with ⟨h0, ⟨_, h, _⟩ | ⟨h, h2⟩⟩
    · cases h
    · exact ⟨h0, Or.inr ⟨h, held _ h2⟩⟩
  · exact held _ h
  · cases h.1
  · rcases h with ⟨_, ⟨_, h, _⟩ | ⟨_, _, h, _⟩⟩ <;> cases h

/-- A call of the MAC that starts nothing. -/
theorem mac_owed {t : Nat} {s : Sys} {p : Owed} (h : Owes t s p) {m' : Mac} {x : Entry} (hx : owe t p x = some p)
    (ho : observeEvents (kindOf s.mac.op) (m'.out.drop s.mac.out.length) = some (kindOf m'.op)) :
    ∃ p', owed t (s.mac_ m' x).log = some p' ∧ kindOf (s.mac_ m' x).mac.op = p'.kind ∧
      ∀ u, Mine (s.threads t) s.opFlags s.entropyValue u p →
        Mine (s.threads t) (s.mac_ m' x).opFlags (s.mac_ m' x).entropyValue u p' := by
  rw [h.kind] at ho
  obtain ⟨f1, _, _, _, _, _, _, _, _, f10⟩ := mac_fields s m' x
  rw [f1, f10]
  have hl : owed t (s.log ++ added s m' x) = ((m'.out.drop s.mac.out.length).map Entry.event).foldlM (owe t) p := by
    rw [owed_append, h.log]
    simp only [Option.bind_some, added, List.foldlM_cons, hx]
    rfl
  rw [hl]
  unfold Sys.mac_
  rcases events_owed t (m'.out.drop s.mac.out.length) { s with mac := m', log := s.log ++ [x] } p _ ho with
    ⟨g1, g2, g3, g4⟩ | ⟨m, a, ev, k', g1, g2, g3, g4, g5, g6, g7⟩
  · refine ⟨p, g1, g2.symm, fun u hu => ?_⟩
    rw [g3, g4]
    exact hu
  · refine ⟨.over m a ev, g5, g4, fun u hu => ?_⟩
    rw [g1] at hu
    exact hu.over g2 g3 g6 g7

theorem observed_quiet {cfg : Cfg} {m : Mac} {e : Env} {c : Call} (hm : OpOk m) (hs : starts c (step cfg m e c).2 = none) :
    observeEvents (kindOf m.op) ((step cfg m e c).1.out.drop m.out.length) = some (kindOf (step cfg m e c).1.op) := by
  have := step_observed cfg m e c hm
  unfold observeRec at this
  simp only [hs] at this
  split at this
  · rename_i h; rw [h, this]
  · cases this

theorem observed_start {cfg : Cfg} {m : Mac} {e : Env} {c : Call} (hm : OpOk m) {k : Kind}
    (hs : starts c (step cfg m e c).2 = some k) :
    observeEvents (kindOf m.op) ((step cfg m e c).1.out.drop m.out.length) = some none ∧
    kindOf (step cfg m e c).1.op = some k := by
  have := step_observed cfg m e c hm
  unfold observeRec at this
  simp only [hs] at this
  split at this
  · rename_i k' h
    rw [h]
    split at this
    · rename_i hk; exact ⟨by rw [hk], (Option.some.inj this).symm⟩
    · cases this
  · cases this

/-- The operations begun by the requests of methods. -/
def reqStarts (r : Req) (a : Answer) : Option Kind :=
  match r, a with
  | .status c, .status st => starts c st
  | _, _ => none

theorem begins_req {m : Method} (hb : blocking m = true) (a : Answer) : begins m a = reqStarts m.req a := by
  cases m <;> first | rfl | cases hb

theorem quiet_req {m : Method} (hb : blocking m = false) (a : Answer) : reqStarts m.req a = none := by
  cases m <;> first | (cases hb; done) | (cases a <;> rfl)

/-- A request, as the observer sees it. -/
theorem exec_observed {cfg : Cfg} {m : Mac} {e : Env} (r : Req) (hm : OpOk m)
    (hv : ∀ c, r = .void c → ∀ st, starts c st = none) :
    (reqStarts r (exec cfg e m r).2 = none → observeEvents (kindOf m.op) ((exec cfg e m r).1.out.drop m.out.length) =
      some (kindOf (exec cfg e m r).1.op)) ∧
    (∀ k, reqStarts r (exec cfg e m r).2 = some k →
      observeEvents (kindOf m.op) ((exec cfg e m r).1.out.drop m.out.length) = some none ∧
      kindOf (exec cfg e m r).1.op = some k) := by
  cases r with
  | status c => exact ⟨fun h => observed_quiet hm h, fun k h => observed_start hm h⟩
  | void c => exact ⟨fun _ => observed_quiet hm (hv c rfl _), fun k h => (by cases h)⟩
  | _ => exact ⟨fun _ => (by simp [exec, observeEvents]), fun k h => (by cases h)⟩

theorem void_quiet {m : Method} {late : Bool} {c : Call} (h : reqOf m late = .void c) (st : Status) : starts c st = none := by
  cases late
  · simp only [reqOf, Bool.false_eq_true, if_false] at h
    cases m <;> simp only [Method.req, reduceCtorEq, Req.void.injEq] at h <;> subst h <;> cases st <;> rfl
  · simp only [reqOf, if_true, Req.void.injEq] at h
    subst h; cases st <;> rfl

/-- Events of a call of the MAC while no operation is in progress. -/
theorem events_quiet (t : Nat) : ∀ (l : List Event) (s : Sys) (k : Option Kind), observeEvents none l = some k →
    k = none ∧ (∀ p, (l.map Entry.event).foldlM (owe t) p = some p) ∧ (l.foldl Sys.handle s).opFlags = s.opFlags := by
  intro l
  induction l with
  | nil => intro s k h; cases h; exact ⟨rfl, fun _ => rfl, rfl⟩
  | cons ev l ih =>
    intro s k h
    simp only [observeEvents, observeEvent] at h
    cases ht : terminal ev
    · simp only [ht, Bool.false_eq_true, if_false] at h
      obtain ⟨g1, g2, g3⟩ := ih (s.handle ev) k h
      refine ⟨g1, fun p => ?_, ?_⟩
      · have ho : owe t p (.event ev) = some p := by simp [owe, ht]
        simp only [List.map_cons, List.foldlM_cons, ho]; exact g2 p
      · simp only [List.foldl_cons]
        rw [g3]
        simp [Sys.handle, flagOf_quiet ht]
    · simp [ht] at h

theorem clearFlags_keeps {s : Sys} {r : Req} {a : Answer} (h : s.opFlags = 0 ∨ clears r a = false) :
    (s.clearFlags r a).opFlags = s.opFlags ∧ (s.clearFlags r a).entropyValue = s.entropyValue := by
  unfold Sys.clearFlags
  split
  · rcases h with h | h
    · exact ⟨h.symm, rfl⟩
    · cases h
  · exact ⟨rfl, rfl⟩
  · rcases h with h | h
    · exact ⟨h.symm, rfl⟩
    · cases h
  · exact ⟨rfl, rfl⟩

theorem clears_begins {m : Method} {a : Answer} (h : clears m.req a = true) : blocking m = true := by
  cases m <;> first | rfl | (cases a <;> cases h)

/-- The worker. -/
theorem Owes.worker {t : Nat} {cfg : Cfg} {m0 : Mac} {s s' : Sys} {p : Owed} (h : Owes t s p)
    (hi : Inv Method.req cfg m0 s) (hc : Calm t s) (hr : Reachable cfg s.mac) (e : Env)
    (hs : s.workerStep cfg e = some s') : ∃ p', Owes t s' p' := by
  have hop := hr.reach.opOk
  unfold Sys.workerStep at hs
  cases hk : s.worker with
  | waiting =>
    simp only [hk] at hs
    split at hs <;> cases hs
    refine ⟨p, h.log, h.kind, h.mine.unrun fun _ => ?_, fun _ _ _ hw => (by cases hw), h.sem⟩
    simp [Unrun, hk]
  | process =>
    simp only [hk, Option.some.injEq] at hs
    subst hs
    obtain ⟨_, f2, f3, f4, _, _, _, f8, _, _⟩ := mac_fields s (LDL.process cfg e s.mac) (.processed e)
    obtain ⟨p', g1, g2, g3⟩ := mac_owed h (x := .processed e) (m' := LDL.process cfg e s.mac) rfl
      (observed_quiet (cfg := cfg) (e := e) (c := .process) hop rfl)
    refine ⟨p', g1, g2, ?_, fun _ _ _ hw => (by cases hw), ?_⟩
    · simp only [f2]
      refine g3 _ (h.mine.unrun fun _ => ?_)
      simp [Unrun, hk, f4]
    · simp only [f2, f8]; exact h.sem
  | check =>
    simp only [hk, Option.some.injEq] at hs
    subst hs
    refine ⟨p, h.log, h.kind, h.mine.unrun fun _ => ?_, fun _ _ _ hw => ?_, h.sem⟩
    · simp only [Unrun, hk]
      split <;> simp
    · simp only [] at hw
      split at hw <;> cases hw
  | collect =>
    simp only [hk, Option.some.injEq] at hs
    subst hs
    refine ⟨p, h.log, h.kind, h.mine.unrun fun _ => ?_, fun _ _ _ hw => (by cases hw), h.sem⟩
    simp only [Unrun, hk, reduceCtorEq, exists_false, or_false, ne_eq, not_true, false_or, Worker.run.injEq]
    cases s.queue <;> simp
  | run l =>
    cases l with
    | nil =>
      simp only [hk, Option.some.injEq] at hs
      subst hs
      refine ⟨p, h.log, h.kind, h.mine.unrun fun _ => ?_, fun _ _ _ hw => (by cases hw), h.sem⟩
      simp [Unrun, hk]
    | cons x l =>
      obtain ⟨u, r⟩ := x
      obtain ⟨m, late, ph, hpc, hreq, rfl, hq, hst, _, hpend⟩ := hi.job hk
      simp only [] at hreq hpc
      simp only [hk, Option.some.injEq] at hs
      subst hs
      have hun : Unrun s := Or.inr ⟨_, _, hk⟩
      have hv : ∀ c, r = .void c → ∀ st, starts c st = none := fun c hrc st => void_quiet (hreq.symm.trans hrc) st
      obtain ⟨ho1, ho2⟩ := exec_observed (cfg := cfg) (e := e) r hop hv
      generalize hm' : (exec cfg e s.mac r).1 = m' at *
      generalize ha : (exec cfg e s.mac r).2 = a at *
      obtain ⟨f1, f2, f3, f4, _, _, _, f8, _, f10⟩ := mac_fields s m' (.executed u r e a)
      have hmeth : (s.threads u).pc.method = some m := by rcases hpc with h | h <;> rw [h] <;> rfl
      by_cases hu : u = t
      · subst hu
        have hmine := h.mine
        have hlate : late = false ∧ (blocking m = false ∧ p = .out ∧ s.opFlags = 0 ∨
            blocking m = true ∧ (Unrun s → Asking m p ∧ s.opFlags = 0) ∧
              (¬Unrun s → Held m (s.threads u).retval s.opFlags s.entropyValue p)) := by
          unfold Mine at hmine
          rcases hpc with h | h <;> rw [h] at hmine <;> exact hmine
        obtain ⟨hl, hcase⟩ := hlate
        subst hl
        have hreq' : r = m.req := hreq
        have hsem : ∀ d, s.dataSem = 0 → InData ({ s.threads u with retval := d } : Thread).pc := fun _ => h.sem
        have hun' : ∀ x : Sys, x.queue = s.queue → x.worker = .clear r a [] → ¬Unrun x := by
          rintro x h1 h2 (h3 | ⟨y, l, h3⟩)
          · rw [h1, hq] at h3; exact h3 rfl
          · rw [h2] at h3; cases h3
        rcases hcase with ⟨hb, hp, hf⟩ | ⟨hb, h1, _⟩
        · have hq0 : reqStarts r a = none := by rw [hreq']; exact quiet_req hb a
          have hkn : kindOf s.mac.op = none := by rw [h.kind, hp]; rfl
          have hobs := ho1 hq0
          rw [hkn] at hobs
          obtain ⟨g1, g2, g3⟩ := events_quiet u _ { s with mac := m', log := s.log ++ [.executed u r e a] } _ hobs
          have hfl : (s.mac_ m' (.executed u r e a)).opFlags = 0 := by unfold Sys.mac_; rw [g3]; exact hf
          refine ⟨.out, ?_, ?_, ?_, fun _ _ _ _ => Or.inl hfl, ?_⟩
          · simp only [f10]
            rw [owed_append, h.log, hp]
            simp only [Option.bind_some, added, List.foldlM_cons]
            have : owe u .out (.executed u r e a) = some .out := by simp [owe]
            rw [this]
            exact g2 _
          · simp only [f1]; exact g1
          · simp only [f2, upd_same]
            unfold Mine
            rcases hpc with h | h <;> simp only [h] <;> exact ⟨trivial, Or.inl ⟨hb, trivial, hfl⟩⟩
          · simp only [f2, f8, upd_same]; exact hsem _
        · obtain ⟨hask, hf⟩ := h1 hun
          have hkn : kindOf s.mac.op = none := by
            rw [h.kind]
            rcases hask with hp | ⟨_, _, hp, _⟩ <;> rw [hp] <;> rfl
          have howe : owe u p (.executed u r e a) = some (.answer m a) := by
            rcases hask with hp | ⟨_, _, hp, hd⟩ <;> rw [hp]
            · simp [owe]
            · simp [owe, hd]
          have hobs : ∃ k, observeEvents none (m'.out.drop s.mac.out.length) = some k ∧
              kindOf m'.op = reqStarts r a := by
            rw [hkn] at ho1 ho2
            cases hz : reqStarts r a with
            | none =>
              have := ho1 hz
              refine ⟨_, this, ?_⟩
              exact (events_quiet u _ s _ this).1
            | some k => exact ⟨none, (ho2 k hz).1, (ho2 k hz).2⟩
          obtain ⟨k, hobs, hkind⟩ := hobs
          obtain ⟨g1, g2, g3⟩ := events_quiet u _ { s with mac := m', log := s.log ++ [.executed u r e a] } _ hobs
          have hfl : (s.mac_ m' (.executed u r e a)).opFlags = 0 := by unfold Sys.mac_; rw [g3]; exact hf
          refine ⟨.answer m a, ?_, ?_, ?_, fun _ _ _ _ => Or.inl hfl, ?_⟩
          · simp only [f10]
            rw [owed_append, h.log]
            simp only [Option.bind_some, added, List.foldlM_cons, howe]
            exact g2 _
          · simp only [f1]; rw [answer_kind, hkind, begins_req hb, hreq']
          · simp only [f2, upd_same]
            have hn := hun' { s.mac_ m' (.executed u r e a) with
              worker := .clear r a [], threads := upd s.threads u { s.threads u with retval := some a } } f4 rfl
            unfold Mine
            rcases hpc with h | h <;> simp only [h] <;>
              exact ⟨trivial, Or.inr ⟨hb, fun hx => absurd hx hn, fun _ => ⟨a, rfl, Or.inl ⟨rfl, hfl⟩⟩⟩⟩
          · simp only [f2, f8, upd_same]; exact hsem _
      · have hb : blocking m = false := by
          cases hb : blocking m
          · rfl
          · exact absurd (hc u m hmeth hb).1 hu
        have hl : late = false := by
          cases late
          · rfl
          · have h2 : isOtaa m = true := hpend.2.1
            cases m <;> first | (cases hb; done) | (cases h2; done)
        subst hl
        have hreq' : r = m.req := hreq
        have hq0 : reqStarts r a = none := by rw [hreq']; exact quiet_req hb a
        obtain ⟨p', g1, g2, g3⟩ := mac_owed h (x := .executed u r e a) (m' := m') (by simp [owe, hu]) (ho1 hq0)
        have htu : t ≠ u := fun h => hu h.symm
        refine ⟨p', g1, g2, ?_, fun r' a' l' hw => ?_, ?_⟩
        · simp only [f2, upd_other _ _ htu]
          refine g3 _ (h.mine.unrun ?_)
          rintro ⟨m1, l1, hx⟩
          refine absurd (hi.line.unique (t := u) (u := t) ?_ ?_) hu
          · rcases hpc with h | h <;> rw [h] <;> rfl
          · rcases hx with h | h <;> rw [h] <;> rfl
        · right
          cases hw
          cases hz : clears r a
          · rfl
          · rw [hreq'] at hz
            have := clears_begins hz
            rw [hb] at this; cases this
        · simp only [f2, f8, upd_other _ _ htu]; exact h.sem
  | clear r a l =>
    simp only [hk, Option.some.injEq] at hs
    subst hs
    obtain ⟨k1, k2⟩ := clearFlags_keeps (h.fresh r a l hk)
    obtain ⟨c1, c2, c4, _, _, _, c8, _, c10⟩ := clear_fields s r a
    refine ⟨p, ?_, ?_, ?_, fun _ _ _ hw => (by cases hw), ?_⟩
    · simp only [c10]; exact h.log
    · simp only [c1]; exact h.kind
    · simp only [c2, k1, k2]
      refine h.mine.unrun fun _ => ?_
      simp [Unrun, hk, c4]
    · simp only [c2, c8]; exact h.sem
  | answer l =>
    simp only [hk, Option.some.injEq] at hs
    subst hs
    refine ⟨p, h.log, h.kind, h.mine.unrun ?_, fun _ _ _ hw => (by cases hw), h.sem⟩
    rintro ⟨m, late, hpc⟩
    have hl : l = [] := by
      obtain ⟨ph, _, hloc⟩ := hi.phases t
      unfold Local at hloc
      have : Waiting s t (reqOf m late) ∧ Pending Method.req m late ph ∨
          Done s ∧ Got Method.req m late (s.threads t).retval ph := by
        rcases hpc with h | h <;> rw [h] at hloc <;> exact hloc
      rcases this with ⟨⟨_, h2⟩, _⟩ | ⟨⟨_, h2⟩, _⟩
      · rcases h2 with ⟨_, h2⟩ | ⟨_, h2⟩ <;> rw [hk] at h2 <;> cases h2
      · rcases h2 with ⟨_, ⟨r, a, h2⟩ | h2⟩ | ⟨_, h2⟩ <;> rw [hk] at h2 <;> cases h2
        rfl
    simp [Unrun, hk, hl]
  | rearm =>
    simp only [hk] at hs
    split at hs <;> cases hs <;>
      exact ⟨p, h.log, h.kind, h.mine.unrun fun _ => (by simp [Unrun, hk]), fun _ _ _ hw => (by cases hw), h.sem⟩

/-! ### Threads -/

theorem ends_cases {m : Method} {a : Answer} {ev : Event} {k : Kind} (hb : begins m a = some k) (he : ends k ev = true)
    (v : Nat) (hv : ∀ x, ev = .entropy x → v = x) :
    m.judge (some a) (flagOf ev) v = (if displaced a ev then .again else .finish (verdict ev)) ∧
    flagOf ev &&& (4294967295 ^^^ m.mask) = 0 := by
  cases m with
  | otaa l =>
    cases a with
    | status st =>
      cases st <;> simp only [begins, meaning, starts, reduceCtorEq, Option.some.injEq] at hb
      subst hb
      cases ev <;> simp only [ends, Bool.false_eq_true] at he <;> exact ⟨rfl, by simp only [flagOf, Method.mask]; decide⟩
    | _ => cases hb
  | entropy =>
    cases a with
    | status st =>
      cases st <;> simp only [begins, meaning, starts, reduceCtorEq, Option.some.injEq] at hb
      subst hb
      cases ev <;> simp only [ends, Bool.false_eq_true] at he
      · rw [hv _ rfl]; exact ⟨rfl, by simp only [flagOf, Method.mask]; decide⟩
      · exact ⟨rfl, by simp only [flagOf, Method.mask]; decide⟩
    | _ => cases hb
  | data c p d l o =>
    cases a with
    | status st =>
      cases st <;> simp only [begins, meaning, starts, reduceCtorEq, Option.some.injEq] at hb
      · cases c <;> simp only [Bool.false_eq_true, if_false, if_true] at hb <;> subst hb <;>
          cases ev <;> simp only [ends, Bool.false_eq_true] at he <;> exact ⟨rfl, by simp only [flagOf, Method.mask]; decide⟩
      · subst hb
        cases ev <;> simp only [ends, Bool.false_eq_true] at he <;> exact ⟨rfl, by simp only [flagOf, Method.mask]; decide⟩
    | _ => cases hb
  | _ => cases a <;> simp only [begins, meaning, reduceCtorEq] at hb <;> (try (rename_i st; cases st <;> simp [starts] at hb))

theorem begins_after {m : Method} (hb : blocking m = true) (a : Answer) :
    ((begins m a).isSome = true ∧ m.after (some a) = .outcome m) ∨
    ((begins m a).isSome = false ∧ (m.after (some a) = .quit m (.answer a) ∨
      m.isData = true ∧ a = .status .noChannel ∧ m.after (some a) = .band m)) := by
  cases m <;> first | (cases hb; done) | skip
  · cases a with
    | status st => cases st <;> simp [begins, meaning, starts, Method.after]
    | _ => simp [begins, meaning, Method.after]
  · cases a with
    | status st => cases st <;> simp [begins, meaning, starts, Method.after, Method.isData]
    | _ => simp [begins, meaning, Method.after]
  · cases a with
    | status st => cases st <;> simp [begins, meaning, starts, Method.after]
    | _ => simp [begins, meaning, Method.after]

theorem after_quiet {m : Method} (hb : blocking m = false) (x : Option Answer) : ∃ r, m.after x = .quit m r := by
  cases m <;> first | (cases hb; done) | exact ⟨_, rfl⟩

/-- A step of the thread that changes only where it is. -/
theorem Owes.moved {t : Nat} {s s' : Sys} {p : Owed} (h : Owes t s p) {pc : Pc} (hw : s'.worker = s.worker)
    (hm : s'.mac = s.mac) (ht : s'.threads t = { s.threads t with pc := pc }) (hl : s'.log = s.log)
    (hf : s'.opFlags = s.opFlags ∨ s.opFlags ≠ 0) (hs : s'.dataSem = 0 → InData pc)
    (hmine : Mine { s.threads t with pc := pc } s'.opFlags s'.entropyValue (Unrun s') p) : Owes t s' p := by
  refine ⟨by rw [hl]; exact h.log, by rw [hm]; exact h.kind, by rw [ht]; exact hmine, fun r a l hk => ?_, ?_⟩
  · rw [hw] at hk
    rcases h.fresh r a l hk with h1 | h1
    · rcases hf with h2 | h2
      · exact Or.inl (h2.trans h1)
      · exact absurd h1 h2
    · exact Or.inr h1
  · rw [ht]; exact hs

/-- A method returns. -/
theorem Owes.ret {t : Nat} {s s' : Sys} {p : Owed} (h : Owes t s p) {m : Method} {r : Result} (hw : s'.worker = s.worker)
    (hm : s'.mac = s.mac) (ht : s'.threads t = { s.threads t with pc := .idle }) (hl : s'.log = s.log ++ [.returned t m r])
    (hf : s'.opFlags = 0) (hk0 : p.kind = none) (hs : s'.dataSem ≠ 0)
    (ho : owe t p (.returned t m r) = some .out) : Owes t s' .out := by
  refine ⟨by rw [hl]; exact owed_snoc h.log ho, by rw [hm, h.kind]; exact hk0, ?_, fun _ _ _ _ => Or.inl hf, fun h => absurd h hs⟩
  rw [ht]
  exact ⟨rfl, hf⟩

theorem setPc_same (s : Sys) (t : Nat) (pc : Pc) : (s.setPc t pc).threads t = { s.threads t with pc := pc } := by
  simp only [Sys.setPc, upd_same]

/-- A step of the thread itself. -/
theorem Owes.thread {t : Nat} {cfg : Cfg} {m0 : Mac} {s s' : Sys} {p : Owed} (h : Owes t s p)
    (hi : Inv Method.req cfg m0 s) (hs : s.threadStep t = some s') : ∃ p', Owes t s' p' := by
  obtain ⟨ph, hph, hloc⟩ := hi.phases t
  have hmine := h.mine
  have hsem := h.sem
  have hin : ∀ {pc pc' : Pc} {m : Method}, pc.method = some m → pc'.method = some m → (∀ m, pc' ≠ .tryData m) →
      InData pc → InData pc' := by
    rintro pc pc' m h1 h2 h3 ⟨m', h4, h5, _⟩
    rw [h1] at h4; cases h4
    exact ⟨m, h2, h5, h3 m⟩
  have hnd : ∀ {m : Method}, (s.threads t).pc.method = some m → m.isData = false → s.dataSem ≠ 0 := by
    intro m h1 h2 h3
    obtain ⟨m', h4, h5, _⟩ := hsem h3
    rw [h1] at h4; cases h4
    rw [h2] at h5; cases h5
  unfold Sys.threadStep at hs
  unfold Mine at hmine
  unfold Local at hloc
  cases hpc : (s.threads t).pc with
  | idle => rw [hpc] at hs; cases hs
  | tryData m =>
    rw [hpc] at hmine hloc hsem
    simp only [hpc] at hs hmine hloc
    have hd : s.dataSem > 0 := by
      rcases Nat.eq_zero_or_pos s.dataSem with hz | hz
      · obtain ⟨m', h1, _, h3⟩ := hsem hz
        cases h1
        exact absurd rfl h3
      · exact hz
    rw [if_pos hd] at hs
    cases hs
    refine ⟨p, h.moved rfl rfl (setPc_same ..) rfl (Or.inl rfl) (fun _ => ⟨m, rfl, hloc.2.1, nofun⟩) ?_⟩
    exact ⟨rfl, Or.inr ⟨isData_blocking hloc.2.1, Or.inl hmine.1, hmine.2⟩⟩
  | enter m late =>
    rw [hpc] at hmine hsem
    simp only [hpc] at hs hmine
    split at hs <;> cases hs
    refine ⟨p, h.moved rfl rfl (setPc_same ..) rfl (Or.inl rfl) (fun hz => hin rfl rfl nofun (hsem hz)) hmine⟩
  | post m late =>
    rw [hpc] at hmine hsem
    simp only [hpc] at hs hmine
    cases hs
    refine ⟨p, h.moved rfl rfl (setPc_same ..) rfl (Or.inl rfl) (fun hz => hin rfl rfl nofun (hsem hz)) ?_⟩
    refine ⟨hmine.1, ?_⟩
    rcases hmine.2 with h1 | ⟨h1, h2, h3⟩
    · exact Or.inl h1
    · exact Or.inr ⟨h1, fun _ => ⟨h2, h3⟩, fun hx => absurd (Or.inl (by simp)) hx⟩
  | kick m late =>
    rw [hpc] at hmine hsem
    simp only [hpc] at hs hmine
    cases hs
    exact ⟨p, h.moved rfl rfl (setPc_same ..) rfl (Or.inl rfl) (fun hz => hin rfl rfl nofun (hsem hz)) hmine⟩
  | await m late =>
    rw [hpc] at hmine hsem hloc
    simp only [hpc] at hs hmine hloc
    split at hs <;> cases hs
    rename_i hst
    refine ⟨p, h.moved rfl rfl (setPc_same ..) rfl (Or.inl rfl) (fun hz => hin rfl rfl nofun (hsem hz)) ?_⟩
    refine ⟨hmine.1, ?_⟩
    rcases hmine.2 with h1 | ⟨h1, _, h3⟩
    · exact Or.inl h1
    · refine Or.inr ⟨h1, h3 ?_⟩
      rcases hloc with ⟨⟨h4, _⟩, _⟩ | ⟨⟨h4, h5⟩, _⟩
      · omega
      · rcases h5 with ⟨h5, _⟩ | ⟨_, h5⟩
        · omega
        · rintro (h6 | ⟨x, l, h6⟩)
          · exact h6 h4
          · rw [h6] at h5; cases h5
  | leave m late =>
    rw [hpc] at hmine hsem
    simp only [hpc] at hs hmine
    obtain ⟨hl, hmine⟩ := hmine
    subst hl
    simp only [Bool.false_eq_true, if_false, Option.some.injEq] at hs
    rcases hmine with ⟨hb, hp, hf⟩ | ⟨hb, a, hret, hheld⟩
    · obtain ⟨r, hr⟩ := after_quiet hb (s.threads t).retval
      have hd : m.isData = false := by
        cases hd : m.isData
        · rfl
        · rw [isData_blocking hd] at hb; cases hb
      rw [hr, goto_ret hd] at hs
      subst hs
      subst hp
      exact ⟨.out, h.ret rfl rfl (setPc_same ..) rfl hf rfl (hnd (by rw [hpc]; rfl) hd) (by simp [owe, hb])⟩
    · rw [hret] at hs
      rcases begins_after hb a with ⟨h1, h2⟩ | ⟨h1, h2⟩
      · rw [h2] at hs
        subst hs
        refine ⟨p, h.moved rfl rfl (setPc_same ..) rfl (Or.inl rfl) (fun hz => hin rfl rfl nofun (hsem hz)) ?_⟩
        exact ⟨a, hret, hheld⟩
      · have hp : p = .refused m a ∧ s.opFlags = 0 := by
          rcases hheld with ⟨h3, h4⟩ | ⟨ev, k, h3, _⟩
          · exact ⟨by rw [h3]; unfold Owed.answer; rw [h1]; rfl, h4⟩
          · rw [h3] at h1; cases h1
        obtain ⟨hp, hf⟩ := hp
        rcases h2 with h2 | ⟨hd, ha, h2⟩
        · rw [h2] at hs
          cases hd : m.isData
          · rw [goto_ret hd] at hs
            subst hs
            subst hp
            exact ⟨.out, h.ret rfl rfl (setPc_same ..) rfl hf rfl (hnd (by rw [hpc]; rfl) hd) (by simp [owe, hb])⟩
          · rw [goto_quit hd] at hs
            subst hs
            refine ⟨p, h.moved rfl rfl (setPc_same ..) rfl (Or.inl rfl) (fun hz => hin rfl rfl nofun (hsem hz)) ?_⟩
            exact ⟨hf, Or.inl ⟨a, hp, rfl⟩⟩
        · rw [h2] at hs
          subst hs
          refine ⟨p, h.moved rfl rfl (setPc_same ..) rfl (Or.inl rfl) (fun hz => hin rfl rfl nofun (hsem hz)) ?_⟩
          exact ⟨by rw [hp, ha], hf⟩
  | outcome m =>
    rw [hpc] at hmine hsem hloc
    simp only [hpc] at hs hmine hloc
    obtain ⟨_, a0, _, _, _, hb⟩ := hloc
    split at hs
    · rename_i hmask
      obtain ⟨a, hret, hheld⟩ := hmine
      rcases hheld with ⟨_, hf⟩ | ⟨ev, k, h1, h2, hp, hf, hv⟩
      · rw [hf] at hmask; simp at hmask
      · obtain ⟨h3, h4⟩ := ends_cases h1 h2 s.entropyValue hv
        have hne : s.opFlags ≠ 0 := by intro h0; rw [h0] at hmask; simp at hmask
        rw [hret, hf, h3] at hs
        rw [h4] at hs
        cases hd : displaced a ev
        · simp only [hd, Bool.false_eq_true, if_false, Option.some.injEq] at hs
          cases hdat : m.isData
          · rw [goto_ret hdat] at hs
            subst hs
            subst hp
            exact ⟨.out, h.ret rfl rfl (setPc_same ..) rfl rfl rfl (hnd (by rw [hpc]; rfl) hdat)
              (by simp [owe, hb, hd])⟩
          · rw [goto_quit hdat] at hs
            subst hs
            refine ⟨p, h.moved rfl rfl (setPc_same ..) rfl (Or.inr hne) (fun hz => hin rfl rfl nofun (hsem hz)) ?_⟩
            exact ⟨rfl, Or.inr ⟨a, ev, hp, hd, rfl⟩⟩
        · simp only [hd, if_true, Option.some.injEq] at hs
          subst hs
          refine ⟨p, h.moved rfl rfl (setPc_same ..) rfl (Or.inr hne) (fun hz => hin rfl rfl nofun (hsem hz)) ?_⟩
          exact ⟨rfl, Or.inr ⟨hb, Or.inr ⟨a, ev, hp, hd⟩, rfl⟩⟩
    · cases hs
  | band m =>
    rw [hpc] at hmine hsem hloc
    simp only [hpc] at hs hmine hloc
    split at hs
    · rw [goto_quit hloc.2.1] at hs
      cases hs
      refine ⟨p, h.moved rfl rfl (setPc_same ..) rfl (Or.inl rfl) (fun hz => hin rfl rfl nofun (hsem hz)) ?_⟩
      exact ⟨hmine.2, Or.inl ⟨_, hmine.1, rfl⟩⟩
    · cases hs
  | quit m r =>
    rw [hpc] at hmine hsem hloc
    simp only [hpc] at hs hmine hloc
    cases hs
    have hb := isData_blocking hloc.2.1
    have hds : release s.dataSem ≠ 0 := by unfold release; omega
    obtain ⟨hf, ⟨a, hp, hr⟩ | ⟨a, ev, hp, hd, hr⟩⟩ := hmine
    · subst hp
      exact ⟨.out, h.ret rfl rfl (setPc_same ..) rfl hf rfl hds (by simp [owe, hb, hr])⟩
    · subst hp
      exact ⟨.out, h.ret rfl rfl (setPc_same ..) rfl hf rfl hds (by simp [owe, hb, hd, hr])⟩

/-- A step of another thread. -/
theorem Owes.aside {t u : Nat} {cfg : Cfg} {m0 : Mac} {s s' : Sys} {p : Owed} (h : Owes t s p)
    (hi : Inv Method.req cfg m0 s) (hc : Calm t s) (hu : u ≠ t) (hs : s.threadStep u = some s') : Owes t s' p := by
  have htu : t ≠ u := fun h => hu h.symm
  obtain ⟨ph, hph, hloc⟩ := hi.phases u
  have hq : ∀ m, (s.threads u).pc.method = some m → blocking m = false := by
    intro m hm
    cases hb : blocking m
    · rfl
    · exact absurd (hc u m hm hb).1 hu
  have key : ∀ x : Sys, x.mac = s.mac → x.threads t = s.threads t → x.worker = s.worker →
      (x.queue = s.queue ∨ (s.threads u).pc.holding = true) → x.opFlags = s.opFlags → x.entropyValue = s.entropyValue →
      x.dataSem = s.dataSem →
      (x.log = s.log ∨ ∃ m r, x.log = s.log ++ [.returned u m r]) → Owes t x p := by
    intro x h1 h2 h3 h4 h5 h6 h7 h8
    refine ⟨?_, by rw [h1]; exact h.kind, ?_, ?_, by rw [h2, h7]; exact h.sem⟩
    · rcases h8 with h8 | ⟨m, r, h8⟩
      · rw [h8]; exact h.log
      · rw [h8]; exact owed_snoc h.log (by simp [owe, hu])
    · rw [h2, h5, h6]
      refine h.mine.unrun ?_
      rintro ⟨m, late, hpc⟩
      rcases h4 with h4 | h4
      · simp [Unrun, h3, h4]
      · refine absurd (hi.line.unique (t := u) (u := t) h4 ?_) hu
        rcases hpc with h | h <;> rw [h] <;> rfl
    · rw [h3, h5]; exact h.fresh
  have hset : ∀ (x : Sys) q, (x.setPc u q).threads t = x.threads t := by
    intro x q
    simp only [Sys.setPc, upd_other _ _ htu]
  unfold Sys.threadStep at hs
  unfold Local at hloc
  cases hpc : (s.threads u).pc with
  | idle => rw [hpc] at hs; cases hs
  | tryData m =>
    rw [hpc] at hloc hq
    have := hq m rfl
    rw [isData_blocking hloc.2.1] at this; cases this
  | enter m late =>
    simp only [hpc] at hs
    split at hs <;> cases hs
    exact key _ rfl (hset ..) rfl (Or.inl rfl) rfl rfl rfl (Or.inl rfl)
  | post m late =>
    simp only [hpc] at hs
    cases hs
    exact key _ rfl (hset ..) rfl (Or.inr (by rw [hpc]; rfl)) rfl rfl rfl (Or.inl rfl)
  | kick m late =>
    simp only [hpc] at hs
    cases hs
    exact key _ rfl (hset ..) rfl (Or.inl rfl) rfl rfl rfl (Or.inl rfl)
  | await m late =>
    simp only [hpc] at hs
    split at hs <;> cases hs
    exact key _ rfl (hset ..) rfl (Or.inl rfl) rfl rfl rfl (Or.inl rfl)
  | leave m late =>
    have hb := hq m (by rw [hpc]; rfl)
    simp only [hpc] at hs
    split at hs <;> cases hs
    · exact key _ rfl (hset ..) rfl (Or.inl rfl) rfl rfl rfl (Or.inr ⟨_, _, rfl⟩)
    · obtain ⟨r, hr⟩ := after_quiet hb (s.threads u).retval
      have hd : m.isData = false := by
        cases hd : m.isData
        · rfl
        · rw [isData_blocking hd] at hb; cases hb
      rw [show ({ s with queueSem := release s.queueSem } : Sys).threads u = s.threads u from rfl, hr, goto_ret hd]
      exact key _ rfl (hset ..) rfl (Or.inl rfl) rfl rfl rfl (Or.inr ⟨_, _, rfl⟩)
  | outcome m =>
    rw [hpc] at hloc hq
    obtain ⟨_, _, _, _, _, hb⟩ := hloc
    rw [hq m rfl] at hb; cases hb
  | band m =>
    rw [hpc] at hloc hq
    have := hq m rfl
    rw [isData_blocking hloc.2.1] at this; cases this
  | quit m r =>
    rw [hpc] at hloc hq
    have := hq m rfl
    rw [isData_blocking hloc.2.1] at this; cases this

theorem radio_out (cfg : Cfg) (m : Mac) (e : Env) (x : Nat) : (step cfg m e (.radioEvent x)).1.out = m.out := by
  have := step_api cfg e m (.radioEvent x) nofun
  generalize (step cfg m e (.radioEvent x)).1 = m' at *
  cases this <;> rfl

/-- **Every step keeps it.** -/
theorem Owes.act {t : Nat} {cfg : Cfg} {m0 : Mac} {s s' : Sys} {p : Owed} (h : Owes t s p)
    (hi : Inv Method.req cfg m0 s) (hc : Calm t s) (hr : Reachable cfg s.mac) (a : Act)
    (hs : s.act cfg a = some s') : ∃ p', Owes t s' p' := by
  cases a with
  | call u m =>
    simp only [Sys.act] at hs
    split at hs <;> cases hs
    rename_i hidle
    by_cases hu : u = t
    · subst hu
      have hmine := h.mine
      unfold Mine at hmine
      rw [hidle] at hmine
      obtain ⟨hp, hf⟩ := hmine
      subst hp
      have hsem : s.dataSem ≠ 0 := by
        intro hz
        obtain ⟨m', h1, _⟩ := h.sem hz
        rw [hidle] at h1; cases h1
      refine ⟨if blocking m then .asked m else .out, ?_, ?_, ?_, fun _ _ _ _ => Or.inl hf, fun hz => absurd hz hsem⟩
      · refine owed_snoc h.log ?_
        cases hb : blocking m <;> simp [owe, hb]
      · show kindOf s.mac.op = _
        rw [h.kind]
        split <;> rfl
      · simp only [upd_same]
        cases hd : m.isData
        · cases hb : blocking m
          · exact ⟨rfl, Or.inl ⟨hb, rfl, hf⟩⟩
          · exact ⟨rfl, Or.inr ⟨hb, Or.inl rfl, hf⟩⟩
        · rw [isData_blocking hd]
          exact ⟨rfl, hf⟩
    · have htu : t ≠ u := fun h => hu h.symm
      refine ⟨p, owed_snoc h.log (by simp [owe, hu]), h.kind, ?_, h.fresh, ?_⟩
      · simp only [upd_other _ _ htu]; exact h.mine
      · simp only [upd_other _ _ htu]; exact h.sem
  | thread u =>
    by_cases hu : u = t
    · subst hu; exact h.thread hi hs
    · exact ⟨p, h.aside hi hc hu hs⟩
  | expire v =>
    simp only [Sys.act, Sys.expire] at hs
    split at hs <;> cases hs
    rename_i hpc
    exact absurd rfl (hc v (.otaa true) (by rw [hpc]; rfl) rfl).2
  | worker e => exact h.worker hi hc hr e hs
  | timer =>
    simp only [Sys.act] at hs
    split at hs <;> cases hs
    exact ⟨p, h.log, h.kind, h.mine, h.fresh, h.sem⟩
  | radio e =>
    simp only [Sys.act, Option.some.injEq] at hs
    subst hs
    obtain ⟨_, f2, f3, f4, _, _, _, f8, _, _⟩ := mac_fields s (step cfg s.mac e (.radioEvent e.ticks)).1 (.interrupted e)
    obtain ⟨p', g1, g2, g3⟩ := mac_owed h (x := .interrupted e) (m' := (step cfg s.mac e (.radioEvent e.ticks)).1) rfl
      (observed_quiet (cfg := cfg) (e := e) (c := .radioEvent e.ticks) hr.reach.opOk rfl)
    refine ⟨p', g1, g2, ?_, ?_, ?_⟩
    · simp only [f2]
      refine g3 _ (h.mine.unrun fun _ => ?_)
      simp [Unrun, f3, f4]
    · simp only [f3]
      intro r a l hk
      have : (s.mac_ (step cfg s.mac e (.radioEvent e.ticks)).1 (.interrupted e)).opFlags = s.opFlags := by
        unfold Sys.mac_
        rw [radio_out, List.drop_length]
        rfl
      rw [this]
      exact h.fresh r a l hk
    · simp only [f2, f8]; exact h.sem

/-- **In all reachable states.** -/
theorem reaches_owes {t : Nat} {cfg : Cfg} {ok : Act → Prop} (hok : ∀ a, ok a → SoleUser t a) {m0 : Mac} {s : Sys}
    (h : Reaches cfg ok m0 s) : Calm t s ∧ ∃ p, Owes t s p := by
  induction h with
  | start region arg e hs ha hm =>
    refine ⟨fun _ _ h => (by cases h), .out, rfl, ?_, ⟨rfl, rfl⟩, fun _ _ _ h => (by cases h), fun h => (by cases h)⟩
    show kindOf (init cfg region arg e).op = none
    rw [(init_opOk ..).2.1]
    rfl
  | act h a hw ho hs ih =>
    obtain ⟨hc, p, hp⟩ := ih
    exact ⟨hc.act a (hok a ho) hs, hp.act (reaches_inv (fun _ _ _ => rfl) h) hc (reaches_reachable h).2 a hs⟩

end Mbed
end LDL
