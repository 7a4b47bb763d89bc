import Verif.Spec.Mbed

/-!
# Lemmas about the mbed wrapper: what every interleaving keeps
-/

namespace LDL
namespace Mbed
open Spec Spec.Mbed

variable {mean : Method → Req}

/-! ### MAC calls -/

theorem handle_fields (s : Sys) (l : List Event) :
    (l.foldl Sys.handle s).mac = s.mac ∧ (l.foldl Sys.handle s).threads = s.threads ∧
    (l.foldl Sys.handle s).worker = s.worker ∧ (l.foldl Sys.handle s).queue = s.queue ∧
    (l.foldl Sys.handle s).work = s.work ∧ (l.foldl Sys.handle s).status = s.status ∧
    (l.foldl Sys.handle s).queueSem = s.queueSem ∧ (l.foldl Sys.handle s).dataSem = s.dataSem ∧
    (l.foldl Sys.handle s).timer = s.timer ∧ (l.foldl Sys.handle s).log = s.log ++ l.map .event := by
  induction l generalizing s with
  | nil => simp
  | cons x l ih =>
    have := ih (s.handle x)
    simp only [List.foldl_cons]
    obtain ⟨h1, h2, h3, h4, h5, h6, h7, h8, h9, h10⟩ := this
    rw [h1, h2, h3, h4, h5, h6, h7, h8, h9, h10]
    simp [Sys.handle]

/-- The entries a call of the MAC adds. -/
def added (s : Sys) (m : Mac) (x : Entry) : List Entry := x :: (m.out.drop s.mac.out.length).map .event

theorem mac_fields (s : Sys) (m : Mac) (x : Entry) :
    (s.mac_ m x).mac = m ∧ (s.mac_ m x).threads = s.threads ∧ (s.mac_ m x).worker = s.worker ∧
    (s.mac_ m x).queue = s.queue ∧ (s.mac_ m x).work = s.work ∧ (s.mac_ m x).status = s.status ∧
    (s.mac_ m x).queueSem = s.queueSem ∧ (s.mac_ m x).dataSem = s.dataSem ∧ (s.mac_ m x).timer = s.timer ∧
    (s.mac_ m x).log = s.log ++ added s m x := by
  have := handle_fields { s with mac := m, log := s.log ++ [x] } (m.out.drop s.mac.out.length)
  unfold Sys.mac_
  obtain ⟨h1, h2, h3, h4, h5, h6, h7, h8, h9, h10⟩ := this
  refine ⟨h1, h2, h3, h4, h5, h6, h7, h8, h9, ?_⟩
  rw [h10]
  simp [added]

theorem clear_fields (s : Sys) (r : Req) (a : Answer) :
    (s.clearFlags r a).mac = s.mac ∧ (s.clearFlags r a).threads = s.threads ∧
    (s.clearFlags r a).queue = s.queue ∧ (s.clearFlags r a).work = s.work ∧ (s.clearFlags r a).status = s.status ∧
    (s.clearFlags r a).queueSem = s.queueSem ∧ (s.clearFlags r a).dataSem = s.dataSem ∧
    (s.clearFlags r a).timer = s.timer ∧ (s.clearFlags r a).log = s.log := by
  unfold Sys.clearFlags
  split <;> simp

/-! ### Replaying -/

theorem replay_append (cfg : Cfg) (m : Mac) (a b : List Entry) :
    replay cfg m (a ++ b) = (replay cfg m a).bind fun m => replay cfg m b := by
  unfold replay
  rw [List.foldlM_append]
  rfl

theorem replay_events (cfg : Cfg) (m : Mac) (l : List Event) : replay cfg m (l.map .event) = some m := by
  induction l with
  | nil => rfl
  | cons x l ih => exact ih

theorem exec_serve (cfg : Cfg) (e : Env) (m : Mac) (r : Req) : exec cfg e m r = serve cfg e m r := by cases r <;> rfl

theorem replay_added (cfg : Cfg) (s : Sys) (m' : Mac) (x : Entry) (h : replay1 cfg s.mac x = some m') :
    replay cfg s.mac (added s m' x) = some m' := by
  unfold added
  show (replay1 cfg s.mac x).bind (fun m => replay cfg m _) = _
  rw [h]
  exact replay_events ..

/-! ### Phases -/

theorem phase_append (t : Nat) (a b : List Entry) :
    phase mean t (a ++ b) = (phase mean t a).bind fun p => (own t b).foldlM (follow mean) p := by
  unfold phase own
  rw [List.filter_append, List.foldlM_append]
  rfl

theorem own_events (t : Nat) (l : List Event) : own t (l.map .event) = [] := by
  unfold own
  rw [List.filter_eq_nil_iff]
  intro x hx
  obtain ⟨ev, _, rfl⟩ := List.mem_map.1 hx
  simp [Entry.thread]

theorem own_added (t : Nat) (s : Sys) (m : Mac) (x : Entry) : own t (added s m x) = own t [x] := by
  unfold added
  have h : own t (x :: (m.out.drop s.mac.out.length).map Entry.event) =
      own t [x] ++ own t ((m.out.drop s.mac.out.length).map Entry.event) := by
    unfold own
    rw [← List.filter_append]
    rfl
  rw [h, own_events, List.append_nil]

theorem phase_added (t : Nat) (s : Sys) (m : Mac) (x : Entry) :
    phase mean t (s.log ++ added s m x) = phase mean t (s.log ++ [x]) := by
  rw [phase_append, phase_append, own_added]

theorem phase_other (t : Nat) (l : List Entry) (x : Entry) (h : Entry.thread x ≠ some t) :
    phase mean t (l ++ [x]) = phase mean t l := by
  rw [phase_append]
  have : own t [x] = [] := by simp [own, h]
  rw [this]
  cases phase mean t l <;> rfl

theorem phase_own (t : Nat) (l : List Entry) (x : Entry) (h : Entry.thread x = some t) {p : Phase}
    (hp : phase mean t l = some p) : phase mean t (l ++ [x]) = follow mean p x := by
  rw [phase_append, hp]
  have : own t [x] = [x] := by simp [own, h]
  rw [this]
  show (follow mean p x).bind _ = _
  cases follow mean p x <;> rfl

/-! ### The invariant -/

/-- A thread that holds the queue semaphore. -/
def Pc.holding : Pc → Bool
  | .post .. | .kick .. | .await .. | .leave .. => true
  | _ => false

/-- The worker has no request in hand. -/
def Worker.free : Worker → Bool
  | .run l => l.isEmpty
  | .clear .. | .answer .. => false
  | _ => true

/-- Nothing is in flight. -/
def Quiet (s : Sys) : Prop := s.queue = [] ∧ s.status = 0 ∧ s.worker.free = true

/-- The request of a thread has been posted, and not run. -/
def Waiting (s : Sys) (h : Nat) (r : Req) : Prop :=
  s.status = 0 ∧ (s.queue = [(h, r)] ∧ s.worker.free = true ∨ s.queue = [] ∧ s.worker = .run [(h, r)])

/-- The request of a thread has been run, and the thread has not been told or has not heard. -/
def Done (s : Sys) : Prop :=
  s.queue = [] ∧ (s.status = 0 ∧ ((∃ r a, s.worker = .clear r a []) ∨ s.worker = .answer []) ∨
    s.status = 1 ∧ s.worker.free = true)

/-- The request of a method. -/
def reqOf (m : Method) (late : Bool) : Req := if late then .void .forget else m.req

/-- A method that has not called the MAC since it last decided to. -/
def Pending (mean : Method → Req) (m : Method) (late : Bool) (p : Phase) : Prop :=
  m.req = mean m ∧
  if late then isOtaa m = true ∧ p = .answered m (.status .ok)
  else p = .called m ∨ m.isData = true ∧ p = .answered m (.status .macPriority)

/-- A method with an answer. -/
def Got (mean : Method → Req) (m : Method) (late : Bool) (retval : Option Answer) (p : Phase) : Prop :=
  m.req = mean m ∧
  if late then isOtaa m = true ∧ p = .late else ∃ a, p = .answered m a ∧ retval = some a

/-- What is known of a thread and its phase. -/
def Local (mean : Method → Req) (s : Sys) (t : Nat) (p : Phase) : Prop :=
  match (s.threads t).pc with
  | .idle => p = .out
  | .tryData m => m.req = mean m ∧ m.isData = true ∧ p = .called m
  | .enter m late => Pending mean m late p
  | .post m late => Quiet s ∧ Pending mean m late p
  | .kick m late | .await m late =>
    Waiting s t (reqOf m late) ∧ Pending mean m late p ∨ Done s ∧ Got mean m late (s.threads t).retval p
  | .leave m late => Quiet s ∧ Got mean m late (s.threads t).retval p
  | .outcome m => m.req = mean m ∧ ∃ a, p = .answered m a ∧ (s.threads t).retval = some a ∧ goesOn m a = true ∧
      blocking m = true
  | .band m => m.req = mean m ∧ m.isData = true ∧ p = .answered m (.status .noChannel)
  | .quit m r => m.req = mean m ∧ m.isData = true ∧ ∃ a, p = .answered m a ∧ (goesOn m a = false → r = .answer a) ∧
      r ≠ .undefined

/-- The queue semaphore and its holder. -/
def Line (s : Sys) : Prop :=
  s.queueSem = 1 ∧ (∀ t, (s.threads t).pc.holding = false) ∧ Quiet s ∨
  s.queueSem = 0 ∧ ∃ h, (s.threads h).pc.holding = true ∧ ∀ t, t ≠ h → (s.threads t).pc.holding = false

/-- A request that a thread waits for will be noticed. -/
def Noticed (s : Sys) : Prop :=
  ∀ t m late, (s.threads t).pc = .await m late → s.queue ≠ [] →
    s.work > 0 ∨ s.worker = .process ∨ s.worker = .check ∨ s.worker = .collect

structure Inv (mean : Method → Req) (cfg : Cfg) (m0 : Mac) (s : Sys) : Prop where
  replay : replay cfg m0 s.log = some s.mac
  line : Line s
  phases : ∀ t, ∃ p, phase mean t s.log = some p ∧ Local mean s t p
  noticed : Noticed s

/-! ### Small facts -/

theorem upd_same {α : Type} (f : Nat → α) (i : Nat) (v : α) : upd f i v i = v := by simp [upd]

theorem upd_other {α : Type} (f : Nat → α) {i j : Nat} (v : α) (h : j ≠ i) : upd f i v j = f j := by simp [upd, h]

theorem Line.unique {s : Sys} (h : Line s) {t u : Nat} (ht : (s.threads t).pc.holding = true)
    (hu : (s.threads u).pc.holding = true) : t = u := by
  rcases h with ⟨_, h, _⟩ | ⟨_, x, _, h⟩
  · rw [h t] at ht; cases ht
  · by_cases h1 : t = x
    · by_cases h2 : u = x
      · rw [h1, h2]
      · rw [h u h2] at hu; cases hu
    · rw [h t h1] at ht; cases ht

/-- A thread is not concerned by what others do, unless it waits for the worker. -/
theorem Local.other {s s' : Sys} {t : Nat} {p : Phase} (h : Local mean s t p) (ht : s'.threads t = s.threads t)
    (hq : (s.threads t).pc.holding = true → s'.queue = s.queue ∧ s'.status = s.status ∧ s'.worker = s.worker) :
    Local mean s' t p := by
  unfold Local at h ⊢
  rw [ht]
  cases hp : (s.threads t).pc <;> rw [hp] at h hq <;> simp only [] at h ⊢ <;> try exact h
  all_goals
    obtain ⟨h1, h2, h3⟩ := hq rfl
    simp only [Quiet, Waiting, Done, h1, h2, h3] at h ⊢
    exact h

theorem phase_keep {s s' : Sys} {t : Nat} (h : ∃ p, phase mean t s.log = some p ∧ Local mean s t p)
    (hl : phase mean t s'.log = phase mean t s.log) (ht : s'.threads t = s.threads t)
    (hq : (s.threads t).pc.holding = true → s'.queue = s.queue ∧ s'.status = s.status ∧ s'.worker = s.worker) :
    ∃ p, phase mean t s'.log = some p ∧ Local mean s' t p := by
  obtain ⟨p, h1, h2⟩ := h
  exact ⟨p, by rw [hl, h1], h2.other ht hq⟩

/-- The worker goes on without a request. -/
theorem Local.free {s s' : Sys} {t : Nat} {p : Phase} (h : Local mean s t p) (ht : s'.threads t = s.threads t)
    (hq : s'.queue = s.queue) (hs : s'.status = s.status) (hf : s.worker.free = true) (hf' : s'.worker.free = true) :
    Local mean s' t p := by
  have hw : Quiet s → Quiet s' := by
    rintro ⟨h1, h2, _⟩
    exact ⟨hq.trans h1, hs.trans h2, hf'⟩
  have hw2 : ∀ r, Waiting s t r → Waiting s' t r := by
    rintro r ⟨h1, h2⟩
    refine ⟨hs.trans h1, ?_⟩
    rcases h2 with ⟨h2, _⟩ | ⟨_, h3⟩
    · exact Or.inl ⟨hq.trans h2, hf'⟩
    · rw [h3] at hf; cases hf
  have hw3 : Done s → Done s' := by
    rintro ⟨h1, h2⟩
    refine ⟨hq.trans h1, ?_⟩
    rcases h2 with ⟨_, ⟨r, a, h3⟩ | h3⟩ | ⟨h2, _⟩
    · rw [h3] at hf; cases hf
    · rw [h3] at hf; cases hf
    · exact Or.inr ⟨hs.trans h2, hf'⟩
  unfold Local at h ⊢
  rw [ht]
  cases hp : (s.threads t).pc <;> rw [hp] at h <;> simp only [] at h ⊢ <;> try exact h
  · exact ⟨hw h.1, h.2⟩
  · exact h.imp (fun h => ⟨hw2 _ h.1, h.2⟩) (fun h => ⟨hw3 h.1, h.2⟩)
  · exact h.imp (fun h => ⟨hw2 _ h.1, h.2⟩) (fun h => ⟨hw3 h.1, h.2⟩)
  · exact ⟨hw h.1, h.2⟩

theorem Line.keep {s s' : Sys} (h : Line s) (hh : ∀ t, (s'.threads t).pc.holding = (s.threads t).pc.holding)
    (hq : s'.queueSem = s.queueSem) (hw : Quiet s → Quiet s') : Line s' := by
  rcases h with ⟨h1, h2, h3⟩ | ⟨h1, x, h2, h3⟩
  · exact Or.inl ⟨hq.trans h1, fun t => (hh t).trans (h2 t), hw h3⟩
  · exact Or.inr ⟨hq.trans h1, x, (hh x).trans h2, fun t ht => (hh t).trans (h3 t ht)⟩

/-- What a thread waiting for the worker knows when the worker has its request in hand. -/
theorem Inv.job {cfg : Cfg} {m0 : Mac} {s : Sys} (h : Inv mean cfg m0 s) {x : Nat × Req} {l : List (Nat × Req)}
    (hw : s.worker = .run (x :: l)) : ∃ m late p, ((s.threads x.1).pc = .kick m late ∨ (s.threads x.1).pc = .await m late) ∧
      x.2 = reqOf m late ∧ l = [] ∧ s.queue = [] ∧ s.status = 0 ∧ phase mean x.1 s.log = some p ∧ Pending mean m late p := by
  have hf : s.worker.free = false := by rw [hw]; rfl
  rcases h.line with ⟨_, _, _, _, h3⟩ | ⟨_, y, h2, _⟩
  · rw [hf] at h3; cases h3
  · obtain ⟨p, hp, hl⟩ := h.phases y
    unfold Local at hl
    have hk : ∀ m late, (Waiting s y (reqOf m late) ∧ Pending mean m late p ∨ Done s ∧ Got mean m late (s.threads y).retval p) →
        x = (y, reqOf m late) ∧ l = [] ∧ s.queue = [] ∧ s.status = 0 ∧ Pending mean m late p := by
      rintro m late (⟨⟨h1, h4⟩, h5⟩ | ⟨⟨_, h4⟩, _⟩)
      · rcases h4 with ⟨_, h4⟩ | ⟨h6, h4⟩
        · rw [hf] at h4; cases h4
        · rw [hw] at h4; cases h4; exact ⟨rfl, rfl, h6, h1, h5⟩
      · rcases h4 with ⟨_, ⟨r, a, h4⟩ | h4⟩ | ⟨_, h4⟩
        · rw [hw] at h4; cases h4
        · rw [hw] at h4; cases h4
        · rw [hf] at h4; cases h4
    cases hpc : (s.threads y).pc <;> rw [hpc] at hl h2 <;> simp only [] at hl <;> try (cases h2; done)
    · rw [hl.1.2.2] at hf; cases hf
    · obtain ⟨rfl, h4, h5, h6, h7⟩ := hk _ _ hl
      exact ⟨_, _, p, Or.inl hpc, rfl, h4, h5, h6, hp, h7⟩
    · obtain ⟨rfl, h4, h5, h6, h7⟩ := hk _ _ hl
      exact ⟨_, _, p, Or.inr hpc, rfl, h4, h5, h6, hp, h7⟩
    · rw [hl.1.2.2] at hf; cases hf

/-- The MAC has been called for a method. -/
theorem Pending.follow {m : Method} {late : Bool} {p : Phase} (h : Pending mean m late p) (t : Nat) (e : Env) (a : Answer) :
    ∃ p', follow mean p (.executed t (reqOf m late) e a) = some p' ∧ Got mean m late (some a) p' := by
  obtain ⟨h1, h2⟩ := h
  cases late with
  | true =>
    rw [if_pos rfl] at h2
    obtain ⟨h3, rfl⟩ := h2
    refine ⟨.late, ?_, h1, by rw [if_pos rfl]; exact ⟨h3, rfl⟩⟩
    have h4 : ¬(m.isData = true ∧ Answer.status .ok = .status .macPriority ∧ reqOf m true = mean m) := by
      rintro ⟨h4, _⟩
      cases m <;> simp [isOtaa, Method.isData] at h3 h4
    exact (if_neg h4).trans (if_pos ⟨h3, rfl, rfl⟩)
  | false =>
    rw [if_neg (by simp)] at h2
    refine ⟨.answered m a, ?_, h1, by rw [if_neg (by simp)]; exact ⟨a, rfl, rfl⟩⟩
    have hr : reqOf m false = mean m := h1
    rcases h2 with rfl | ⟨h3, rfl⟩
    · exact if_pos hr
    · exact if_pos ⟨h3, rfl, hr⟩

/-! ### The worker -/

theorem log_replay {cfg : Cfg} {m0 : Mac} {s : Sys} (h : replay cfg m0 s.log = some s.mac) (m' : Mac) (x : Entry)
    (hx : replay1 cfg s.mac x = some m') : replay cfg m0 (s.log ++ added s m' x) = some m' := by
  rw [replay_append, h]
  exact replay_added cfg s m' x hx

theorem Inv.free {cfg : Cfg} {m0 : Mac} {s s' : Sys} (h : Inv mean cfg m0 s) (hf : s.worker.free = true)
    (hf' : s'.worker.free = true) (ht : s'.threads = s.threads) (hq : s'.queue = s.queue) (hs : s'.status = s.status)
    (hqs : s'.queueSem = s.queueSem) (hr : Spec.Mbed.replay cfg m0 s'.log = some s'.mac)
    (hp : ∀ t, phase mean t s'.log = phase mean t s.log) (hn : Noticed s') : Inv mean cfg m0 s' where
  replay := hr
  line := h.line.keep (fun t => by rw [ht]) hqs fun hw => ⟨hq.trans hw.1, hs.trans hw.2.1, hf'⟩
  phases t := by
    obtain ⟨p, h1, h2⟩ := h.phases t
    exact ⟨p, (hp t).trans h1, h2.free (by rw [ht]) hq hs hf hf'⟩
  noticed := hn

theorem Inv.worker {cfg : Cfg} {m0 : Mac} {s s' : Sys} (h : Inv mean cfg m0 s) (e : Env)
    (hs : s.workerStep cfg e = some s') : Inv mean cfg m0 s' := by
  unfold Sys.workerStep at hs
  cases hw : s.worker with
  | waiting =>
    simp only [hw] at hs
    split at hs
    · cases hs
      exact h.free (by rw [hw]; rfl) rfl rfl rfl rfl rfl h.replay (fun _ => rfl) fun _ _ _ _ _ => Or.inr (Or.inl rfl)
    · cases hs
  | process =>
    simp only [hw, Option.some.injEq] at hs
    obtain ⟨h1, h2, h3, h4, h5, h6, h7, h8, h9, h10⟩ := mac_fields s (LDL.process cfg e s.mac) (.processed e)
    generalize s.mac_ (LDL.process cfg e s.mac) (.processed e) = x at *
    subst hs
    refine h.free (by rw [hw]; rfl) rfl h2 h4 h6 h7 ?_ ?_ fun _ _ _ _ _ => Or.inr (Or.inr (Or.inl rfl))
    · show Spec.Mbed.replay cfg m0 x.log = some x.mac
      rw [h10, h1]
      exact log_replay h.replay _ _ rfl
    · intro t
      show phase mean t x.log = _
      rw [h10, phase_added, phase_other _ _ _ (by simp [Entry.thread])]
  | check =>
    simp only [hw, Option.some.injEq] at hs
    subst hs
    refine h.free (by rw [hw]; rfl) ?_ rfl rfl rfl rfl h.replay (fun _ => rfl) fun _ _ _ _ _ => ?_
    · show Worker.free (if _ then _ else _) = true
      split <;> rfl
    · show _ ∨ (if _ then _ else _) = _ ∨ (if _ then _ else _) = _ ∨ (if _ then _ else _) = _
      split <;> simp
  | collect =>
    simp only [hw, Option.some.injEq] at hs
    subst hs
    have hf : s.worker.free = true := by rw [hw]; rfl
    refine ⟨h.replay, h.line.keep (fun _ => rfl) rfl ?_, ?_, ?_⟩
    · rintro ⟨h1, h2, _⟩
      exact ⟨rfl, h2, by rw [h1]; rfl⟩
    · intro t
      obtain ⟨p, h1, h2⟩ := h.phases t
      refine ⟨p, h1, ?_⟩
      have hk : ∀ m late, (Waiting s t (reqOf m late) ∧ Pending mean m late p ∨ Done s ∧ Got mean m late (s.threads t).retval p) →
          (Waiting { s with worker := .run s.queue, queue := [] } t (reqOf m late) ∧ Pending mean m late p ∨
            Done { s with worker := .run s.queue, queue := [] } ∧ Got mean m late (s.threads t).retval p) := by
        rintro m late (⟨⟨h3, h4⟩, h5⟩ | ⟨⟨h3, h4⟩, h5⟩)
        · rcases h4 with ⟨h4, _⟩ | ⟨_, h4⟩
          · exact Or.inl ⟨⟨h3, Or.inr ⟨rfl, by rw [h4]⟩⟩, h5⟩
          · rw [hw] at h4; cases h4
        · rcases h4 with ⟨_, ⟨r, a, h4⟩ | h4⟩ | ⟨h4, _⟩
          · rw [hw] at h4; cases h4
          · rw [hw] at h4; cases h4
          · exact Or.inr ⟨⟨rfl, Or.inr ⟨h4, by rw [h3]; rfl⟩⟩, h5⟩
      have hq : Quiet s → Quiet { s with worker := .run s.queue, queue := [] } := by
        rintro ⟨h3, h4, _⟩
        exact ⟨rfl, h4, by rw [h3]; rfl⟩
      unfold Local at h2 ⊢
      simp only []
      cases hp : (s.threads t).pc <;> rw [hp] at h2 <;> simp only [] at h2 ⊢ <;> try exact h2
      · exact ⟨hq h2.1, h2.2⟩
      · exact hk _ _ h2
      · exact hk _ _ h2
      · exact ⟨hq h2.1, h2.2⟩
    · intro t m late _ hq
      exact absurd rfl hq
  | run l =>
    cases l with
    | nil =>
      simp only [hw, Option.some.injEq] at hs
      subst hs
      refine h.free (by rw [hw]; rfl) rfl rfl rfl rfl rfl h.replay (fun _ => rfl) fun t m late h1 h2 => ?_
      have := h.noticed t m late h1 h2
      rw [hw] at this
      simp only [reduceCtorEq, or_false] at this
      exact Or.inl this
    | cons x l =>
      obtain ⟨t, r⟩ := x
      simp only [hw, Option.some.injEq] at hs
      obtain ⟨m, late, p, hpc, rfl, rfl, hq, hst, hph, hpe⟩ := h.job hw
      simp only [] at hpc hph
      obtain ⟨h1, h2, h3, h4, h5, h6, h7, h8, h9, h10⟩ := mac_fields s (exec cfg e s.mac (reqOf m late)).1
        (.executed t (reqOf m late) e (exec cfg e s.mac (reqOf m late)).2)
      generalize s.mac_ (exec cfg e s.mac (reqOf m late)).1
        (.executed t (reqOf m late) e (exec cfg e s.mac (reqOf m late)).2) = y at *
      obtain ⟨p', hf, hg⟩ := hpe.follow t e (exec cfg e s.mac (reqOf m late)).2
      have hd : Done { y with
          worker := .clear (reqOf m late) (exec cfg e s.mac (reqOf m late)).2 []
          threads := upd y.threads t { y.threads t with retval := some (exec cfg e s.mac (reqOf m late)).2 } } :=
        ⟨h4.trans hq, Or.inl ⟨h6.trans hst, Or.inl ⟨_, _, rfl⟩⟩⟩
      have hholds : (s.threads t).pc.holding = true := by rcases hpc with h | h <;> rw [h] <;> rfl
      subst hs
      refine ⟨?_, h.line.keep (fun u => ?_) h7 ?_, fun u => ?_, ?_⟩
      · show Spec.Mbed.replay cfg m0 y.log = some y.mac
        rw [h10, h1]
        exact log_replay h.replay _ _ (by simp [replay1, exec_serve])
      · show (upd y.threads t _ u).pc.holding = _
        by_cases hu : u = t
        · rw [hu, upd_same, h2]
        · rw [upd_other _ _ hu, h2]
      · rintro ⟨_, _, h11⟩
        rw [hw] at h11; cases h11
      · by_cases hu : u = t
        · subst hu
          refine ⟨p', ?_, ?_⟩
          · show phase mean u y.log = _
            rw [h10, phase_added, phase_own u _ _ rfl hph, hf]
          · unfold Local
            simp only [upd_same, h2]
            rcases hpc with hpc | hpc <;> simp only [hpc] <;> refine Or.inr ⟨?_, hg⟩ <;> (simp only [h2] at hd; exact hd)
        · refine phase_keep (h.phases u) ?_ ?_ ?_
          · show phase mean u y.log = _
            rw [h10, phase_added, phase_other]
            simp only [Entry.thread, ne_eq, Option.some.injEq]
            exact fun h => hu h.symm
          · show upd y.threads t _ u = _
            rw [upd_other _ _ hu, h2]
          · intro hh
            exact absurd (h.line.unique hh hholds) hu
      · intro u m late _ hq'
        exact absurd (h4.trans hq) hq'
  | clear r a l =>
    simp only [hw, Option.some.injEq] at hs
    obtain ⟨h1, h2, h4, h5, h6, h7, h8, h9, h10⟩ := clear_fields s r a
    generalize s.clearFlags r a = y at *
    have hdone : ∀ m late t p, (Waiting s t (reqOf m late) ∧ Pending mean m late p ∨ Done s ∧ Got mean m late (s.threads t).retval p) →
        l = [] ∧ s.queue = [] ∧ s.status = 0 ∧ Got mean m late (s.threads t).retval p := by
      rintro m late t p (⟨⟨_, h12⟩, _⟩ | ⟨⟨h11, h12⟩, h13⟩)
      · rcases h12 with ⟨_, h12⟩ | ⟨_, h12⟩ <;> rw [hw] at h12 <;> cases h12
      · rcases h12 with ⟨h14, ⟨r, a, h12⟩ | h12⟩ | ⟨_, h12⟩ <;> rw [hw] at h12 <;> cases h12
        exact ⟨rfl, h11, h14, h13⟩
    have hnq : ¬Quiet s := by rintro ⟨_, _, h11⟩; rw [hw] at h11; cases h11
    subst hs
    refine ⟨by rw [show ({ y with worker := Worker.answer l } : Sys).log = y.log from rfl, h10]; exact h.replay.trans (by rw [← h1]),
      h.line.keep (fun u => by rw [show ({ y with worker := Worker.answer l } : Sys).threads = y.threads from rfl, h2]) h7
        (fun hq => absurd hq hnq), fun t => ?_, ?_⟩
    · obtain ⟨p, hp, hl⟩ := h.phases t
      refine ⟨p, by rw [show ({ y with worker := Worker.answer l } : Sys).log = y.log from rfl, h10]; exact hp, ?_⟩
      unfold Local at hl ⊢
      simp only [h2]
      cases hpc : (s.threads t).pc <;> rw [hpc] at hl <;> simp only [] at hl ⊢ <;> try exact hl
      · exact absurd hl.1 hnq
      · obtain ⟨rfl, h11, h12, h13⟩ := hdone _ _ _ _ hl
        exact Or.inr ⟨⟨h4.trans h11, Or.inl ⟨h6.trans h12, Or.inr rfl⟩⟩, h13⟩
      · obtain ⟨rfl, h11, h12, h13⟩ := hdone _ _ _ _ hl
        exact Or.inr ⟨⟨h4.trans h11, Or.inl ⟨h6.trans h12, Or.inr rfl⟩⟩, h13⟩
      · exact absurd hl.1 hnq
    · intro t m late hpc hq
      have hpc' : (s.threads t).pc = .await m late := by rw [← h2]; exact hpc
      obtain ⟨p, hp, hl⟩ := h.phases t
      unfold Local at hl
      rw [hpc'] at hl
      exact absurd (h4.trans (hdone _ _ _ _ hl).2.1) hq
  | answer l =>
    simp only [hw, Option.some.injEq] at hs
    have hdone : ∀ m late t p, (Waiting s t (reqOf m late) ∧ Pending mean m late p ∨ Done s ∧ Got mean m late (s.threads t).retval p) →
        l = [] ∧ s.queue = [] ∧ s.status = 0 ∧ Got mean m late (s.threads t).retval p := by
      rintro m late t p (⟨⟨_, h12⟩, _⟩ | ⟨⟨h11, h12⟩, h13⟩)
      · rcases h12 with ⟨_, h12⟩ | ⟨_, h12⟩ <;> rw [hw] at h12 <;> cases h12
      · rcases h12 with ⟨h14, ⟨r, a, h12⟩ | h12⟩ | ⟨_, h12⟩ <;> rw [hw] at h12 <;> cases h12
        exact ⟨rfl, h11, h14, h13⟩
    have hnq : ¬Quiet s := by rintro ⟨_, _, h11⟩; rw [hw] at h11; cases h11
    subst hs
    refine ⟨h.replay, h.line.keep (fun _ => rfl) rfl (fun hq => absurd hq hnq), fun t => ?_, ?_⟩
    · obtain ⟨p, hp, hl⟩ := h.phases t
      refine ⟨p, hp, ?_⟩
      unfold Local at hl ⊢
      simp only []
      cases hpc : (s.threads t).pc <;> rw [hpc] at hl <;> simp only [] at hl ⊢ <;> try exact hl
      · exact absurd hl.1 hnq
      · obtain ⟨rfl, h11, h12, h13⟩ := hdone _ _ _ _ hl
        exact Or.inr ⟨⟨h11, Or.inr ⟨by show release s.status = 1; rw [h12]; rfl, rfl⟩⟩, h13⟩
      · obtain ⟨rfl, h11, h12, h13⟩ := hdone _ _ _ _ hl
        exact Or.inr ⟨⟨h11, Or.inr ⟨by show release s.status = 1; rw [h12]; rfl, rfl⟩⟩, h13⟩
      · exact absurd hl.1 hnq
    · intro t m late hpc hq
      obtain ⟨p, hp, hl⟩ := h.phases t
      unfold Local at hl
      rw [show (s.threads t).pc = .await m late from hpc] at hl
      exact absurd (hdone _ _ _ _ hl).2.1 hq
  | rearm =>
    simp only [hw] at hs
    have hn : ∀ t m late, (s.threads t).pc = .await m late → s.queue ≠ [] → s.work > 0 := by
      intro t m late h1 h2
      have := h.noticed t m late h1 h2
      rw [hw] at this
      simpa using this
    split at hs
    · cases hs
      refine h.free (by rw [hw]; rfl) rfl rfl rfl rfl rfl h.replay (fun _ => rfl) fun t m late h1 h2 => Or.inl ?_
      show release s.work > 0
      unfold release
      omega
    · cases hs
      exact h.free (by rw [hw]; rfl) rfl rfl rfl rfl rfl h.replay (fun _ => rfl) fun t m late h1 h2 => Or.inl (hn t m late h1 h2)

/-! ### The threads -/

/-- A thread goes on. -/
theorem Inv.mine {cfg : Cfg} {m0 : Mac} {s s' : Sys} (h : Inv mean cfg m0 s) (t : Nat)
    (hr : Spec.Mbed.replay cfg m0 s'.log = some s'.mac) (ht : ∀ u, u ≠ t → s'.threads u = s.threads u)
    (hl : ∀ u, u ≠ t → phase mean u s'.log = phase mean u s.log)
    (hq : (s.threads t).pc.holding = false → s'.queue = s.queue ∧ s'.status = s.status ∧ s'.worker = s.worker)
    (line : Line s') (me : ∃ p, phase mean t s'.log = some p ∧ Local mean s' t p) (hn : Noticed s') : Inv mean cfg m0 s' := by
  refine ⟨hr, line, fun u => ?_, hn⟩
  by_cases hu : u = t
  · rw [hu]; exact me
  · refine phase_keep (h.phases u) (hl u hu) (ht u hu) fun hh => ?_
    cases hb : (s.threads t).pc.holding with
    | true => exact absurd (h.line.unique hh hb) hu
    | false => exact hq hb

/-- A thread goes on without the queue semaphore. -/
theorem Inv.aside {cfg : Cfg} {m0 : Mac} {s s' : Sys} (h : Inv mean cfg m0 s) (t : Nat)
    (hr : Spec.Mbed.replay cfg m0 s'.log = some s'.mac) (ht : ∀ u, u ≠ t → s'.threads u = s.threads u)
    (hl : ∀ u, u ≠ t → phase mean u s'.log = phase mean u s.log)
    (hb : (s.threads t).pc.holding = false) (ha : (s'.threads t).pc.holding = false)
    (hq : s'.queue = s.queue) (hs : s'.status = s.status) (hw : s'.worker = s.worker) (hqs : s'.queueSem = s.queueSem)
    (hwk : s'.work = s.work) (me : ∃ p, phase mean t s'.log = some p ∧ Local mean s' t p) : Inv mean cfg m0 s' := by
  refine h.mine t hr ht hl (fun _ => ⟨hq, hs, hw⟩) (h.line.keep (fun u => ?_) hqs ?_) me ?_
  · by_cases hu : u = t
    · rw [hu, hb, ha]
    · rw [ht u hu]
  · rintro ⟨h1, h2, h3⟩
    exact ⟨hq.trans h1, hs.trans h2, by rw [hw]; exact h3⟩
  · intro u m late h1 h2
    have hu : u ≠ t := by
      rintro rfl
      rw [h1] at ha; cases ha
    rw [ht u hu] at h1
    rw [hq] at h2
    rw [hwk, hw]
    exact h.noticed u m late h1 h2

theorem replay_returned {cfg : Cfg} {m0 : Mac} {s : Sys} (h : replay cfg m0 s.log = some s.mac) (t : Nat) (m : Method)
    (r : Result) : replay cfg m0 (s.log ++ [.returned t m r]) = some s.mac := by
  rw [replay_append, h]; rfl

theorem phase_returned_other (s : Sys) {t u : Nat} (m : Method) (r : Result) (hu : u ≠ t) :
    phase mean u (s.log ++ [.returned t m r]) = phase mean u s.log := by
  refine phase_other _ _ _ ?_
  simp only [Entry.thread, ne_eq, Option.some.injEq]
  exact fun h => hu h.symm

/-- A thread without the queue semaphore moves on in its method. -/
theorem Inv.moved {cfg : Cfg} {m0 : Mac} {s s' : Sys} (h : Inv mean cfg m0 s) (t : Nat) (pc : Pc)
    (ht : s'.threads = upd s.threads t { s.threads t with pc := pc }) (hlog : s'.log = s.log) (hm : s'.mac = s.mac)
    (hb : (s.threads t).pc.holding = false) (ha : pc.holding = false)
    (hq : s'.queue = s.queue) (hs : s'.status = s.status) (hw : s'.worker = s.worker) (hqs : s'.queueSem = s.queueSem)
    (hwk : s'.work = s.work) (me : ∀ p, Local mean s t p → Local mean s' t p) : Inv mean cfg m0 s' := by
  refine h.aside t (by rw [hlog, hm]; exact h.replay) (fun u hu => by rw [ht, upd_other _ _ hu]) (fun u _ => by rw [hlog])
    hb (by rw [ht, upd_same]; exact ha) hq hs hw hqs hwk ?_
  obtain ⟨p, h1, h2⟩ := h.phases t
  exact ⟨p, by rw [hlog]; exact h1, me p h2⟩

/-- A thread without the queue semaphore returns. -/
theorem Inv.ret {cfg : Cfg} {m0 : Mac} {s s' : Sys} (h : Inv mean cfg m0 s) (t : Nat) (m : Method) (r : Result)
    (ht : s'.threads = upd s.threads t { s.threads t with pc := .idle }) (hlog : s'.log = s.log ++ [.returned t m r])
    (hm : s'.mac = s.mac) (hb : (s.threads t).pc.holding = false)
    (hq : s'.queue = s.queue) (hs : s'.status = s.status) (hw : s'.worker = s.worker) (hqs : s'.queueSem = s.queueSem)
    (hwk : s'.work = s.work) (me : ∀ p, Local mean s t p → follow mean p (.returned t m r) = some .out) : Inv mean cfg m0 s' := by
  refine h.aside t (by rw [hlog, hm]; exact replay_returned h.replay ..) (fun u hu => by rw [ht, upd_other _ _ hu])
    (fun u hu => by rw [hlog]; exact phase_returned_other s m r hu) hb (by rw [ht, upd_same]; rfl) hq hs hw hqs hwk ?_
  obtain ⟨p, h1, h2⟩ := h.phases t
  refine ⟨.out, by rw [hlog, phase_own t _ _ rfl h1]; exact me p h2, ?_⟩
  unfold Local
  rw [ht, upd_same]

/-- A method ends: what its thread has to know. -/
theorem follow_returned {m : Method} {a : Answer} {r : Result} (t : Nat) (h : goesOn m a = false → r = .answer a)
    (hr : r ≠ .undefined) : follow mean (.answered m a) (.returned t m r) = some .out := if_pos ⟨rfl, h, hr⟩

theorem judge_defined (m : Method) (x : Option Answer) (f v : Nat) {r : Result} (h : m.judge x f v = .finish r) :
    r ≠ .undefined := by
  rintro rfl
  unfold Method.judge at h
  split at h <;> (repeat' split at h) <;> cases h

theorem judge_again {m : Method} {x : Option Answer} {f v : Nat} (h : m.judge x f v = .again) (hb : blocking m = true) :
    m.isData = true ∧ x = some (.status .macPriority) := by
  unfold Method.judge at h
  split at h <;> (repeat' split at h) <;> first | (cases h; done) | skip
  refine ⟨?_, by assumption⟩
  cases m <;> simp_all [blocking, Method.isData]

theorem judge_giveUp {m : Method} {x : Option Answer} {f v : Nat} (h : m.judge x f v = .giveUp) : isOtaa m = true := by
  unfold Method.judge at h
  split at h <;> (repeat' split at h) <;> first | (cases h; done) | rfl

/-- A thread with the queue semaphore keeps it. -/
theorem Inv.held {cfg : Cfg} {m0 : Mac} {s s' : Sys} (h : Inv mean cfg m0 s) (t : Nat) (pc : Pc)
    (ht : s'.threads = upd s.threads t { s.threads t with pc := pc }) (hlog : s'.log = s.log) (hm : s'.mac = s.mac)
    (hb : (s.threads t).pc.holding = true) (ha : pc.holding = true) (hqs : s'.queueSem = s.queueSem)
    (me : ∀ p, Local mean s t p → Local mean s' t p) (hn : Noticed s') : Inv mean cfg m0 s' := by
  have hl : Line s' := by
    rcases h.line with ⟨_, h2, _⟩ | ⟨h1, x, h2, h3⟩
    · rw [h2 t] at hb; cases hb
    · have hx : t = x := h.line.unique hb h2
      subst hx
      refine Or.inr ⟨hqs.trans h1, t, by rw [ht, upd_same]; exact ha, fun u hu => ?_⟩
      rw [ht, upd_other _ _ hu]; exact h3 u hu
  refine h.mine t (by rw [hlog, hm]; exact h.replay) (fun u hu => by rw [ht, upd_other _ _ hu]) (fun u _ => by rw [hlog])
    (fun h1 => by rw [hb] at h1; cases h1) hl ?_ hn
  obtain ⟨p, h1, h2⟩ := h.phases t
  exact ⟨p, by rw [hlog]; exact h1, me p h2⟩

/-- A thread gives the queue semaphore back. -/
theorem Inv.released {cfg : Cfg} {m0 : Mac} {s s' : Sys} (h : Inv mean cfg m0 s) (t : Nat) (hq0 : Quiet s)
    (hr : Spec.Mbed.replay cfg m0 s'.log = some s'.mac)
    (ht : ∀ u, u ≠ t → s'.threads u = s.threads u)
    (hl : ∀ u, u ≠ t → phase mean u s'.log = phase mean u s.log)
    (hb : (s.threads t).pc.holding = true) (ha : (s'.threads t).pc.holding = false)
    (hq : s'.queue = s.queue) (hs : s'.status = s.status) (hw : s'.worker = s.worker)
    (hqs : s'.queueSem = release s.queueSem)
    (me : ∃ p, phase mean t s'.log = some p ∧ Local mean s' t p) : Inv mean cfg m0 s' := by
  refine h.mine t hr ht hl (fun h1 => by rw [hb] at h1; cases h1) ?_ me ?_
  · rcases h.line with ⟨_, h2, _⟩ | ⟨h1, x, h2, h3⟩
    · rw [h2 t] at hb; cases hb
    · have hx : t = x := h.line.unique hb h2
      subst hx
      refine Or.inl ⟨by rw [hqs, h1]; rfl, fun u => ?_, hq.trans hq0.1, hs.trans hq0.2.1, by rw [hw]; exact hq0.2.2⟩
      by_cases hu : u = t
      · rw [hu]; exact ha
      · rw [ht u hu]; exact h3 u hu
  · intro u m late _ h2
    exact absurd (hq.trans hq0.1) h2

theorem goto_ret {s : Sys} {t : Nat} {m : Method} {r : Result} (h : m.isData = false) :
    s.goto t m (.quit m r) = s.ret t m r := by
  simp [Sys.goto, h]

theorem goto_quit {s : Sys} {t : Nat} {m : Method} {r : Result} (h : m.isData = true) :
    s.goto t m (.quit m r) = s.setPc t (.quit m r) := by
  simp [Sys.goto, h]

/-- Where a method goes with its answer. -/
theorem after_cases (m : Method) (a : Answer) :
    (m.after (some a) = .quit m (.answer a) ∧ goesOn m a = false) ∨
    (m.after (some a) = .outcome m ∧ goesOn m a = true ∧ blocking m = true) ∨
    (m.after (some a) = .band m ∧ m.isData = true ∧ a = .status .noChannel) := by
  cases m <;> simp only [Method.after, goesOn, Option.some.injEq, blocking, Method.isData, reduceCtorEq, and_false,
    true_and, decide_eq_true_eq, decide_eq_false_iff_not, and_true] <;> (repeat' split) <;> simp_all
  rename_i h
  exact h.elim Or.inl fun h => Or.inr (Or.inl h)

theorem Inv.thread {cfg : Cfg} {m0 : Mac} {s s' : Sys} (h : Inv mean cfg m0 s) (t : Nat)
    (hs : s.threadStep t = some s') : Inv mean cfg m0 s' := by
  unfold Sys.threadStep at hs
  cases hpc : (s.threads t).pc with
  | idle => rw [hpc] at hs; cases hs
  | tryData m =>
    simp only [hpc] at hs
    split at hs <;> cases hs
    · refine h.moved t (.enter m false) rfl rfl rfl (by rw [hpc]; rfl) rfl rfl rfl rfl rfl rfl fun p hp => ?_
      unfold Local at hp ⊢
      simp only [Sys.setPc, upd_same]
      rw [hpc] at hp
      exact ⟨hp.1, Or.inl hp.2.2⟩
    · refine h.ret t m .timeout rfl rfl rfl (by rw [hpc]; rfl) rfl rfl rfl rfl rfl fun p hp => ?_
      unfold Local at hp
      rw [hpc] at hp
      obtain ⟨_, h2, rfl⟩ := hp
      exact if_pos ⟨rfl, h2, rfl⟩
  | enter m late =>
    simp only [hpc] at hs
    split at hs <;> cases hs
    rename_i hsem
    have hb : (s.threads t).pc.holding = false := by rw [hpc]; rfl
    rcases h.line with ⟨h1, h2, h3⟩ | ⟨h1, _⟩
    · refine h.mine t h.replay (fun u hu => upd_other _ _ hu) (fun _ _ => rfl) (fun _ => ⟨rfl, rfl, rfl⟩) ?_ ?_ ?_
      · refine Or.inr ⟨by show s.queueSem - 1 = 0; omega, t, by simp only [Sys.setPc, upd_same]; rfl, fun u hu => ?_⟩
        simp only [Sys.setPc, upd_other _ _ hu]; exact h2 u
      · obtain ⟨p, hp, hl⟩ := h.phases t
        refine ⟨p, hp, ?_⟩
        unfold Local at hl ⊢
        simp only [Sys.setPc, upd_same]
        rw [hpc] at hl
        exact ⟨h3, hl⟩
      · intro u m late _ hq
        exact absurd h3.1 hq
    · omega
  | post m late =>
    simp only [hpc, Option.some.injEq] at hs
    subst hs
    refine h.held t (.kick m late) rfl rfl rfl (by rw [hpc]; rfl) rfl rfl (fun p hp => ?_) ?_
    · unfold Local at hp ⊢
      simp only [Sys.setPc, upd_same]
      rw [hpc] at hp
      obtain ⟨⟨h1, h2, h3⟩, h4⟩ := hp
      refine Or.inl ⟨⟨h2, Or.inl ⟨?_, h3⟩⟩, h4⟩
      show s.queue ++ [(t, _)] = _
      rw [h1]; rfl
    · intro u m' late' hu _
      have hb : (s.threads t).pc.holding = true := by rw [hpc]; rfl
      by_cases hut : u = t
      · rw [hut] at hu
        simp only [Sys.setPc, upd_same] at hu
        cases hu
      · simp only [Sys.setPc, upd_other _ _ hut] at hu
        exact absurd (h.line.unique (by rw [hu]; rfl) hb) hut
  | kick m late =>
    simp only [hpc, Option.some.injEq] at hs
    subst hs
    refine h.held t (.await m late) rfl rfl rfl (by rw [hpc]; rfl) rfl rfl (fun p hp => ?_) fun _ _ _ _ _ => Or.inl ?_
    · unfold Local at hp ⊢
      simp only [Sys.setPc, upd_same]
      rw [hpc] at hp
      exact hp
    · show release s.work > 0
      unfold release
      omega
  | await m late =>
    simp only [hpc] at hs
    split at hs <;> cases hs
    rename_i hst
    refine h.held t (.leave m late) rfl rfl rfl (by rw [hpc]; rfl) rfl rfl (fun p hp => ?_) ?_
    · unfold Local at hp ⊢
      simp only [Sys.setPc, upd_same]
      rw [hpc] at hp
      rcases hp with ⟨⟨h1, _⟩, _⟩ | ⟨⟨h1, h2⟩, h3⟩
      · omega
      · rcases h2 with ⟨h2, _⟩ | ⟨h2, h4⟩
        · omega
        · exact ⟨⟨h1, by show s.status - 1 = 0; omega, h4⟩, h3⟩
    · intro u m' late' hu _
      have hb : (s.threads t).pc.holding = true := by rw [hpc]; rfl
      by_cases hut : u = t
      · rw [hut] at hu
        simp only [Sys.setPc, upd_same] at hu
        cases hu
      · simp only [Sys.setPc, upd_other _ _ hut] at hu
        exact absurd (h.line.unique (by rw [hu]; rfl) hb) hut
  | leave m late =>
    simp only [hpc] at hs
    have hb : (s.threads t).pc.holding = true := by rw [hpc]; rfl
    obtain ⟨p, hp, hl⟩ := h.phases t
    unfold Local at hl
    rw [hpc] at hl
    obtain ⟨hq, hm, hg⟩ := hl
    cases late with
    | true =>
      simp only [if_true, Option.some.injEq] at hs hg
      subst hs
      refine h.released t hq (replay_returned h.replay ..) (fun u hu => upd_other _ _ hu)
        (fun u hu => phase_returned_other s m _ hu) hb (by simp only [Sys.ret, Sys.setPc, upd_same]; rfl) rfl rfl rfl rfl ?_
      refine ⟨.out, ?_, ?_⟩
      · show phase mean t (s.log ++ _) = _
        rw [phase_own t _ _ rfl hp]
        obtain ⟨h1, rfl⟩ := hg
        exact if_pos ⟨h1, rfl⟩
      · unfold Local
        simp only [Sys.ret, Sys.setPc, upd_same]
    | false =>
      simp only [Bool.false_eq_true, if_false, Option.some.injEq] at hs hg
      obtain ⟨a, rfl, hr⟩ := hg
      rw [hr] at hs
      rcases after_cases m a with ⟨h1, h2⟩ | ⟨h1, h2, h3⟩ | ⟨h1, h2, h3⟩
      · rw [h1] at hs
        cases hd : m.isData with
        | true =>
          rw [goto_quit hd] at hs
          subst hs
          refine h.released t hq h.replay (fun u hu => upd_other _ _ hu) (fun _ _ => rfl) hb
            (by simp only [Sys.setPc, upd_same]; rfl) rfl rfl rfl rfl ⟨_, hp, ?_⟩
          unfold Local
          simp only [Sys.setPc, upd_same]
          exact ⟨hm, hd, a, rfl, fun _ => rfl, by simp⟩
        | false =>
          rw [goto_ret hd] at hs
          subst hs
          refine h.released t hq (replay_returned h.replay ..) (fun u hu => upd_other _ _ hu)
            (fun u hu => phase_returned_other s m _ hu) hb (by simp only [Sys.ret, Sys.setPc, upd_same]; rfl) rfl rfl rfl rfl ?_
          refine ⟨.out, ?_, ?_⟩
          · show phase mean t (s.log ++ _) = _
            rw [phase_own t _ _ rfl hp]
            exact follow_returned t (fun _ => rfl) (by simp)
          · unfold Local
            simp only [Sys.ret, Sys.setPc, upd_same]
      · rw [h1] at hs
        simp only [Sys.goto] at hs
        subst hs
        refine h.released t hq h.replay (fun u hu => upd_other _ _ hu) (fun _ _ => rfl) hb
          (by simp only [Sys.setPc, upd_same]; rfl) rfl rfl rfl rfl ⟨_, hp, ?_⟩
        unfold Local
        simp only [Sys.setPc, upd_same]
        exact ⟨hm, a, rfl, hr, h2, h3⟩
      · rw [h1] at hs
        simp only [Sys.goto] at hs
        subst hs
        refine h.released t hq h.replay (fun u hu => upd_other _ _ hu) (fun _ _ => rfl) hb
          (by simp only [Sys.setPc, upd_same]; rfl) rfl rfl rfl rfl ⟨_, hp, ?_⟩
        unfold Local
        simp only [Sys.setPc, upd_same]
        exact ⟨hm, h2, by rw [h3]⟩
  | outcome m =>
    simp only [hpc] at hs
    have hb : (s.threads t).pc.holding = false := by rw [hpc]; rfl
    split at hs
    · cases hj : m.judge (s.threads t).retval s.opFlags s.entropyValue with
      | finish r =>
        simp only [hj, Option.some.injEq] at hs
        have hr := judge_defined _ _ _ _ hj
        cases hd : m.isData with
        | true =>
          rw [goto_quit hd] at hs
          subst hs
          refine h.moved t (.quit m r) rfl rfl rfl hb rfl rfl rfl rfl rfl rfl fun p hp => ?_
          unfold Local at hp ⊢
          simp only [Sys.setPc, upd_same]
          rw [hpc] at hp
          obtain ⟨h1, a, h2, h3, h4, _⟩ := hp
          exact ⟨h1, hd, a, h2, (fun h5 => by rw [h4] at h5; cases h5), hr⟩
        | false =>
          rw [goto_ret hd] at hs
          subst hs
          refine h.ret t m r rfl rfl rfl hb rfl rfl rfl rfl rfl fun p hp => ?_
          unfold Local at hp
          rw [hpc] at hp
          obtain ⟨h1, a, rfl, h3, h4, _⟩ := hp
          exact follow_returned t (fun h5 => by rw [h4] at h5; cases h5) hr
      | again =>
        simp only [hj, Option.some.injEq] at hs
        subst hs
        refine h.moved t (.enter m false) rfl rfl rfl hb rfl rfl rfl rfl rfl rfl fun p hp => ?_
        unfold Local at hp ⊢
        simp only [Sys.setPc, upd_same]
        rw [hpc] at hp
        obtain ⟨h1, a, h2, h3, h4, h5⟩ := hp
        obtain ⟨h6, h7⟩ := judge_again hj h5
        rw [h3, Option.some.injEq] at h7
        exact ⟨h1, Or.inr ⟨h6, by rw [h2, h7]⟩⟩
      | giveUp =>
        simp only [hj, Option.some.injEq] at hs
        subst hs
        refine h.moved t (.enter m true) rfl rfl rfl hb rfl rfl rfl rfl rfl rfl fun p hp => ?_
        unfold Local at hp ⊢
        simp only [Sys.setPc, upd_same]
        rw [hpc] at hp
        obtain ⟨h1, a, h2, h3, h4, h5⟩ := hp
        have h6 := judge_giveUp hj
        refine ⟨h1, h6, ?_⟩
        cases m <;> simp only [isOtaa, Bool.false_eq_true] at h6
        simp only [goesOn, decide_eq_true_eq] at h4
        rw [h2, h4]
    · cases hs
  | band m =>
    simp only [hpc] at hs
    have hb : (s.threads t).pc.holding = false := by rw [hpc]; rfl
    obtain ⟨q, _, hl⟩ := h.phases t
    unfold Local at hl
    rw [hpc] at hl
    have hd := hl.2.1
    split at hs
    · rw [goto_quit hd] at hs
      cases hs
      refine h.moved t (.quit m _) rfl rfl rfl hb rfl rfl rfl rfl rfl rfl fun p hp => ?_
      unfold Local at hp ⊢
      simp only [Sys.setPc, upd_same]
      rw [hpc] at hp
      exact ⟨hp.1, hd, _, hp.2.2, fun _ => rfl, by simp⟩
    · cases hs
  | quit m r =>
    simp only [hpc, Option.some.injEq] at hs
    have hb : (s.threads t).pc.holding = false := by rw [hpc]; rfl
    subst hs
    refine h.ret t m r rfl rfl rfl hb rfl rfl rfl rfl rfl fun p hp => ?_
    unfold Local at hp
    rw [hpc] at hp
    obtain ⟨_, _, a, rfl, h2, h3⟩ := hp
    exact follow_returned t h2 h3

theorem Inv.expire {cfg : Cfg} {m0 : Mac} {s s' : Sys} (h : Inv mean cfg m0 s) (t : Nat)
    (hs : s.expire t = some s') : Inv mean cfg m0 s' := by
  unfold Sys.expire at hs
  split at hs <;> cases hs
  rename_i hpc
  refine h.moved t (.enter (.otaa true) true) rfl rfl rfl (by rw [hpc]; rfl) rfl rfl rfl rfl rfl rfl fun p hp => ?_
  unfold Local at hp ⊢
  simp only [Sys.setPc, upd_same]
  rw [hpc] at hp
  obtain ⟨h1, a, h2, h3, h4, h5⟩ := hp
  simp only [goesOn, decide_eq_true_eq] at h4
  exact ⟨h1, rfl, by rw [h2, h4]⟩

theorem Inv.call {cfg : Cfg} {m0 : Mac} {s s' : Sys} (h : Inv mean cfg m0 s) (t : Nat) (m : Method) (hreq : m.req = mean m)
    (hs : s.act cfg (.call t m) = some s') : Inv mean cfg m0 s' := by
  simp only [Sys.act] at hs
  split at hs <;> cases hs
  rename_i hpc
  refine h.aside t ?_ (fun u hu => upd_other _ _ hu) (fun u hu => ?_) (by rw [hpc]; rfl) ?_ rfl rfl rfl rfl rfl ?_
  · show Spec.Mbed.replay cfg m0 (s.log ++ _) = _
    rw [replay_append, h.replay]; rfl
  · refine phase_other _ _ _ ?_
    simp only [Entry.thread, ne_eq, Option.some.injEq]
    exact fun h => hu h.symm
  · simp only [upd_same]; split <;> rfl
  · obtain ⟨p, hp, hl⟩ := h.phases t
    unfold Local at hl
    rw [hpc] at hl
    simp only [] at hl
    subst hl
    refine ⟨.called m, ?_, ?_⟩
    · show phase mean t (s.log ++ _) = _
      rw [phase_own t _ _ rfl hp]
      rfl
    · unfold Local
      simp only [upd_same]
      cases hd : m.isData with
      | true => exact ⟨hreq, hd, rfl⟩
      | false => exact ⟨hreq, Or.inl rfl⟩

theorem Inv.radio {cfg : Cfg} {m0 : Mac} {s s' : Sys} (h : Inv mean cfg m0 s) (e : Env)
    (hs : s.act cfg (.radio e) = some s') : Inv mean cfg m0 s' := by
  simp only [Sys.act, Option.some.injEq] at hs
  obtain ⟨h1, h2, h3, h4, h5, h6, h7, h8, h9, h10⟩ := mac_fields s (step cfg s.mac e (.radioEvent e.ticks)).1 (.interrupted e)
  generalize s.mac_ (step cfg s.mac e (.radioEvent e.ticks)).1 (.interrupted e) = x at *
  subst hs
  refine ⟨?_, h.line.keep (fun u => by rw [show ({ x with work := release x.work } : Sys).threads = x.threads from rfl, h2]) h7 ?_,
    fun u => phase_keep (h.phases u) ?_ ?_ ?_, fun _ _ _ _ _ => Or.inl ?_⟩
  · show Spec.Mbed.replay cfg m0 x.log = some x.mac
    rw [h10, h1]
    exact log_replay h.replay _ _ rfl
  · rintro ⟨h11, h12, h13⟩
    exact ⟨h4.trans h11, h6.trans h12, by show x.worker.free = true; rw [h3]; exact h13⟩
  · show phase mean u x.log = _
    rw [h10, phase_added, phase_other _ _ _ (by simp [Entry.thread])]
  · show x.threads u = _
    rw [h2]
  · intro _
    exact ⟨h4, h6, h3⟩
  · show release _ > 0
    unfold release
    omega

theorem Inv.timer {cfg : Cfg} {m0 : Mac} {s s' : Sys} (h : Inv mean cfg m0 s)
    (hs : s.act cfg .timer = some s') : Inv mean cfg m0 s' := by
  simp only [Sys.act] at hs
  split at hs <;> cases hs
  refine ⟨h.replay, h.line.keep (fun _ => rfl) rfl fun h => h, fun u => phase_keep (h.phases u) rfl rfl fun _ => ⟨rfl, rfl, rfl⟩,
    fun _ _ _ _ _ => Or.inl ?_⟩
  show release s.work > 0
  unfold release
  omega

/-- Anything keeps the invariant. -/
theorem Inv.act {cfg : Cfg} {m0 : Mac} {s s' : Sys} (h : Inv mean cfg m0 s) (a : Act) (ha : ∀ t m, a = .call t m → m.req = mean m)
    (hs : s.act cfg a = some s') : Inv mean cfg m0 s' := by
  cases a with
  | call t m => exact h.call t m (ha t m rfl) hs
  | thread t => exact h.thread t hs
  | expire t => exact h.expire t hs
  | worker e => exact h.worker e hs
  | timer => exact h.timer hs
  | radio e => exact h.radio e hs

theorem Inv.start (cfg : Cfg) (region : Region) (arg : InitArg) (e : Env) :
    Inv mean cfg (init cfg region arg e) (Sys.start cfg region arg e) where
  replay := rfl
  line := Or.inl ⟨rfl, fun _ => rfl, rfl, rfl, rfl⟩
  phases _ := ⟨.out, rfl, rfl⟩
  noticed _ _ _ h _ := by cases h

theorem reaches_inv {cfg : Cfg} {ok : Act → Prop} (hok : ∀ t m, ok (.call t m) → m.req = mean m) {m0 : Mac} {s : Sys}
    (h : Reaches cfg ok m0 s) : Inv mean cfg m0 s := by
  induction h with
  | start region arg e _ _ hm => rw [hm]; exact Inv.start cfg region arg e
  | act _ a _ ho hs ih => exact ih.act a (fun t m hm => hok t m (by rw [← hm]; exact ho)) hs

end Mbed
end LDL
