import Verif.Spec.Spi

/-!
# Access to the radio over a shared bus: C87
-/

namespace LDL
namespace Spi
open Spec.Spi

/-! ## Invariant -/

/-- What the holder of the bus has put on the wires of its transaction. -/
inductive Part (i : Nat) : Phase → List Line → Prop
  | select (a : Access) (t : Nat) : Part i (.select a t) []
  | poll (a : Access) (t s : Nat) (w : List Nat) (hw : ∀ x ∈ w, x ≤ t + 1000000) :
      Part i (.poll a t) (.nss i true s :: w.map (.sample i true))
  | opcode (a : Access) (t s f : Nat) (w : List Nat) (hw : ∀ x ∈ w, x ≤ t + 1000000) :
      Part i (.opcode a t) (.nss i true s :: w.map (.sample i true) ++ [.sample i false f])
  | payload (a : Access) (t s f : Nat) (w : List Nat) (hw : ∀ x ∈ w, x ≤ t + 1000000) :
      Part i (.payload a t) (.nss i true s :: w.map (.sample i true) ++ [.sample i false f, .out a.opcode])
  | ready (a : Access) (t s f : Nat) (w : List Nat) (hw : ∀ x ∈ w, x ≤ t + 1000000) :
      Part i (.deselect a t true) (.nss i true s :: w.map (.sample i true) ++ .sample i false f :: bytes a)
  | gaveUp (a : Access) (t s x : Nat) (w : List Nat) (hw : ∀ x ∈ w, x ≤ t + 1000000) (hx : t + 1000000 < x) :
      Part i (.deselect a t false) (.nss i true s :: (w ++ [x]).map (.sample i true))
  | unlock (tx : Transaction) (h : tx.Proper) (hi : tx.radio = i) :
      Part i (.unlock tx.access tx.called tx.found.isSome) tx.lines

/-- Outside of a transaction. -/
def Phase.outside : Phase → Bool
  | .out | .lock .. => true
  | _ => false

/-- The log is a sequence of complete transactions, and part of that of the holder of the mutex. -/
structure Ok (s : Bus) (txs : List Transaction) (part : List Line) : Prop where
  log : s.log = txs.flatMap Transaction.lines ++ part
  results : s.results = txs.map Transaction.result
  proper : ∀ t ∈ txs, t.Proper
  free : s.owner = none → part = []
  held : ∀ i, s.owner = some i → Part i (s.phase i) part
  others : ∀ i, s.owner ≠ some i → (s.phase i).outside = true

theorem Ok.init : Ok {} [] [] :=
  ⟨rfl, rfl, by simp, fun _ => rfl, by simp, fun _ _ => rfl⟩

theorem proper_ready (i : Nat) (a : Access) (t s f d : Nat) (w : List Nat) (hw : ∀ x ∈ w, x ≤ t + 1000000) :
    (Transaction.mk i a t s w (some f) d).Proper :=
  ⟨fun x hx => Or.inl (hw x hx), by simp⟩

theorem proper_gaveUp (i : Nat) (a : Access) (t s d x : Nat) (w : List Nat) (hw : ∀ x ∈ w, x ≤ t + 1000000)
    (hx : t + 1000000 < x) : (Transaction.mk i a t s (w ++ [x]) none d).Proper := by
  refine ⟨fun y hy => ?_, fun _ => ⟨x, by simp, hx⟩⟩
  rcases List.mem_append.1 hy with h | h
  · exact Or.inl (hw y h)
  · rw [List.mem_singleton] at h
    subst h
    exact Or.inr ⟨rfl, by simp⟩

/-- The holder goes on within its transaction. -/
theorem Ok.move {s : Bus} {txs : List Transaction} {part : List Line} (h : Ok s txs part) {i : Nat} (ho : s.owner = some i)
    (p : Phase) (l : List Line) (hp : Part i p (part ++ l)) : Ok ((s.emit l).at i p) txs (part ++ l) := by
  refine ⟨?_, h.results, h.proper, fun hn => ?_, fun j hj => ?_, fun j hj => ?_⟩
  · show s.log ++ l = _
    rw [h.log, List.append_assoc]
  · have hn : s.owner = none := hn
    rw [ho] at hn; cases hn
  · have hj : s.owner = some j := hj
    rw [ho] at hj
    cases hj
    simpa [Bus.at] using hp
  · have hj : s.owner ≠ some j := hj
    have hne : j ≠ i := by rintro rfl; exact hj ho
    have := h.others j hj
    simpa [Bus.at, Bus.emit, hne] using this

theorem Ok.holder {s : Bus} {txs : List Transaction} {part : List Line} (h : Ok s txs part) {i : Nat}
    (hp : (s.phase i).outside = false) : s.owner = some i := by
  refine Decidable.byContradiction fun hn => ?_
  rw [h.others i hn] at hp
  cases hp

theorem Ok.go {s : Bus} {txs : List Transaction} {part : List Line} (h : Ok s txs part) (i : Nat) (b1 b2 : Bool) (now : Nat) :
    ∃ txs' part', Ok (s.go i b1 b2 now) txs' part' := by
  unfold Bus.go
  cases hph : s.phase i with
  | out => exact ⟨txs, part, h⟩
  | lock a t =>
    dsimp only
    split
    · next hn =>
      refine ⟨txs, part, h.log, h.results, h.proper, (fun hn => by cases hn), fun j hj => ?_, fun j hj => ?_⟩
      · have hj : some i = some j := hj
        cases hj
        rw [h.free hn]
        simpa [Bus.at] using Part.select a t
      · have hj : some i ≠ some j := hj
        have hne : j ≠ i := by rintro rfl; exact hj rfl
        have := h.others j (by rw [hn]; simp)
        simpa [Bus.at, hne] using this
    · exact ⟨txs, part, h⟩
  | select a t =>
    have ho := h.holder (i := i) (by rw [hph]; rfl)
    have hp := h.held i ho
    rw [hph] at hp
    cases hp
    exact ⟨_, _, h.move ho _ _ (.poll a t now [] (by simp))⟩
  | poll a t =>
    have ho := h.holder (i := i) (by rw [hph]; rfl)
    have hp := h.held i ho
    rw [hph] at hp
    cases hp with
    | poll _ _ sel w hw =>
    dsimp only
    unfold Bus.pass
    split
    · exact ⟨_, _, h.move ho _ _ (.opcode a t sel now w hw)⟩
    · split
      · next hl =>
        refine ⟨_, _, h.move ho _ _ ?_⟩
        have := Part.gaveUp (i := i) a t sel now w hw (by omega)
        simpa using this
      · next hl =>
        have hw' : ∀ x ∈ w ++ [now], x ≤ t + 1000000 := by
          intro x hx
          rcases List.mem_append.1 hx with hx | hx
          · exact hw x hx
          · rw [List.mem_singleton] at hx; omega
        have hm := h.move ho (.poll a t) [.sample i true now]
          (by have := Part.poll (i := i) a t sel (w ++ [now]) hw'; simpa using this)
        have he : (s.emit [.sample i true now]).at i (.poll a t) = s.emit [.sample i true now] := by
          have : (fun j => if j = i then Phase.poll a t else s.phase j) = s.phase := by
            funext j
            split
            · next hj => rw [hj, hph]
            · rfl
          show Bus.mk _ (fun j => if j = i then Phase.poll a t else s.phase j) _ _ = _
          rw [this]; rfl
        rw [he] at hm
        exact ⟨_, _, hm⟩
  | opcode a t =>
    have ho := h.holder (i := i) (by rw [hph]; rfl)
    have hp := h.held i ho
    rw [hph] at hp
    cases hp with
    | opcode _ _ sel f w hw =>
    refine ⟨_, _, h.move ho _ _ ?_⟩
    have := Part.payload (i := i) a t sel f w hw
    simpa using this
  | payload a t =>
    have ho := h.holder (i := i) (by rw [hph]; rfl)
    have hp := h.held i ho
    rw [hph] at hp
    cases hp with
    | payload _ _ sel f w hw =>
    refine ⟨_, _, h.move ho _ _ ?_⟩
    have := Part.ready (i := i) a t sel f w hw
    cases a <;> simpa [bytes, transfer, Access.opcode] using this
  | deselect a t r =>
    have ho := h.holder (i := i) (by rw [hph]; rfl)
    have hp := h.held i ho
    rw [hph] at hp
    cases hp with
    | ready _ _ sel f w hw =>
      refine ⟨_, _, h.move ho _ _ ?_⟩
      have := Part.unlock (i := i) ⟨i, a, t, sel, w, some f, now⟩ (proper_ready _ _ _ _ _ _ _ hw) rfl
      simpa [Transaction.lines] using this
    | gaveUp _ _ sel x w hw hx =>
      refine ⟨_, _, h.move ho _ _ ?_⟩
      have := Part.unlock (i := i) ⟨i, a, t, sel, w ++ [x], none, now⟩ (proper_gaveUp _ _ _ _ _ _ _ hw hx) rfl
      simpa [Transaction.lines] using this
  | unlock a t r =>
    have ho := h.holder (i := i) (by rw [hph]; rfl)
    have hp := h.held i ho
    rw [hph] at hp
    generalize hq : Phase.unlock a t r = q at hp
    cases hp with
    | unlock tx hpr hi =>
      cases hq
      refine ⟨txs ++ [tx], [], ?_, ?_, ?_, fun _ => rfl, (fun j hj => by cases hj), fun j hj => ?_⟩
      · show s.log = _
        rw [h.log]; simp
      · show s.results ++ [_] = _
        rw [h.results, List.map_append, ← hi]; rfl
      · intro x hx
        rcases List.mem_append.1 hx with hx | hx
        · exact h.proper x hx
        · rw [List.mem_singleton] at hx; rw [hx]; exact hpr
      · by_cases hji : j = i
        · simp [Bus.at, hji, Phase.outside]
        · have := h.others j (by rw [ho]; simpa using fun h => hji h.symm)
          simpa [Bus.at, hji] using this
    | _ => cases hq

theorem Ok.step {s : Bus} {txs : List Transaction} {part : List Line} (h : Ok s txs part) (i now : Nat) (act : Act) :
    ∃ txs' part', Ok (s.step i now act) txs' part' := by
  cases act with
  | go b1 b2 => exact h.go i b1 b2 now
  | call a =>
    unfold Bus.step
    dsimp only
    split
    · next hph =>
      refine ⟨txs, part, h.log, h.results, h.proper, h.free, fun j hj => ?_, fun j hj => ?_⟩
      · have hj : s.owner = some j := hj
        have hp := h.held j hj
        by_cases hji : j = i
        · rw [hji, hph] at hp
          cases hp
        · simpa [Bus.at, hji] using hp
      · have hj : s.owner ≠ some j := hj
        by_cases hji : j = i
        · simp [Bus.at, hji, Phase.outside]
        · have := h.others j hj
          simpa [Bus.at, hji] using this
    · exact ⟨txs, part, h⟩

theorem Ok.run {s : Bus} {txs : List Transaction} {part : List Line} (h : Ok s txs part) (l : List (Nat × Nat × Act)) :
    ∃ txs' part', Ok (s.run l) txs' part' := by
  induction l generalizing s txs part with
  | nil => exact ⟨_, _, h⟩
  | cons x l ih =>
    obtain ⟨txs', part', h'⟩ := h.step x.1 x.2.1 x.2.2
    exact ih h'

/-- What is on the wires so far can become a proper transaction. -/
theorem Part.completes {i : Nat} {p : Phase} {part : List Line} (h : Part i p part) :
    ∃ tx : Transaction, tx.Proper ∧ tx.radio = i ∧ part <+: tx.lines := by
  cases h with
  | select a t => exact ⟨⟨i, a, t, 0, [], some 0, 0⟩, proper_ready _ _ _ _ _ _ _ (by simp), rfl, List.nil_prefix⟩
  | poll a t s w hw =>
    refine ⟨⟨i, a, t, s, w, some 0, 0⟩, proper_ready _ _ _ _ _ _ _ hw, rfl, ?_⟩
    exact ⟨Line.sample i false 0 :: bytes a ++ [.nss i false 0], by simp [Transaction.lines]⟩
  | opcode a t s f w hw =>
    refine ⟨⟨i, a, t, s, w, some f, 0⟩, proper_ready _ _ _ _ _ _ _ hw, rfl, ?_⟩
    exact ⟨bytes a ++ [.nss i false 0], by simp [Transaction.lines]⟩
  | payload a t s f w hw =>
    refine ⟨⟨i, a, t, s, w, some f, 0⟩, proper_ready _ _ _ _ _ _ _ hw, rfl, ?_⟩
    cases a with
    | write o d => exact ⟨[.out d, .nss i false 0], by simp [Transaction.lines, bytes, Access.opcode]⟩
    | read o n => exact ⟨[.inp n, .nss i false 0], by simp [Transaction.lines, bytes, Access.opcode]⟩
  | ready a t s f w hw =>
    refine ⟨⟨i, a, t, s, w, some f, 0⟩, proper_ready _ _ _ _ _ _ _ hw, rfl, ?_⟩
    exact ⟨[.nss i false 0], by simp [Transaction.lines]⟩
  | gaveUp a t s x w hw hx =>
    refine ⟨⟨i, a, t, s, w ++ [x], none, 0⟩, proper_gaveUp _ _ _ _ _ _ _ hw hx, rfl, ?_⟩
    exact ⟨[.nss i false 0], by simp [Transaction.lines]⟩
  | unlock tx h hi => exact ⟨tx, h, hi, List.prefix_rfl⟩

/-! ## C87 -/

/-- **C87** (partial): whatever any number of radios on a bus do, at any time, what happens on the wires is a sequence of
accesses, one after the other, each made as called and completely, or given up without a byte transferred, and each
returns whether it was made; at most the last one is not complete.  An access is given up exactly when the radio is found
busy more than a second after the call.  Missing: the second is counted from the call, not from when the radio was
selected (`c87_impatient`). -/
theorem c87_accesses_partial (l : List (Nat × Nat × Act)) : ∃ txs : List Transaction, (∀ t ∈ txs, t.Proper) ∧
    (Bus.run {} l).results = txs.map Transaction.result ∧ ∃ part,
      (Bus.run {} l).log = txs.flatMap Transaction.lines ++ part ∧
      (part = [] ∨ ∃ i, ∃ tx : Transaction, (Bus.run {} l).owner = some i ∧ tx.radio = i ∧ tx.Proper ∧ part <+: tx.lines) := by
  obtain ⟨txs, part, h⟩ := Ok.init.run l
  refine ⟨txs, h.proper, h.results, part, h.log, ?_⟩
  cases ho : (Bus.run {} l).owner with
  | none => exact Or.inl (h.free ho)
  | some i =>
    obtain ⟨tx, h1, h2, h3⟩ := (h.held i ho).completes
    exact Or.inr ⟨i, tx, rfl, h2, h1, h3⟩

theorem selections_append (i : Nat) (a b : List Line) : ∀ cur, selections i cur (a ++ b) =
    ((selections i cur a).1 ++ (selections i (selections i cur a).2 b).1, (selections i (selections i cur a).2 b).2) := by
  induction a with
  | nil => intro cur; rfl
  | cons x a ih =>
    intro cur
    cases x with
    | nss j low t =>
      simp only [List.cons_append, selections]
      split
      · split
        · rw [ih]
        · rw [ih]; cases cur <;> rfl
      · rw [ih]
    | _ => simp only [List.cons_append, selections]; rw [ih]

theorem selections_samples (i j : Nat) (w : List Nat) (cur : Option (List Line)) :
    selections i cur (w.map (.sample j true)) = ([], cur) := by
  induction w with
  | nil => rfl
  | cons x w ih => exact ih

/-- What the chips see of a transaction. -/
theorem selections_lines (i : Nat) (t : Transaction) : selections i none t.lines =
    (if t.radio = i then [if t.found.isSome then bytes t.access else []] else [], none) := by
  unfold Transaction.lines
  rw [selections_append, selections_append, selections_append]
  by_cases h : t.radio = i
  · cases hf : t.found with
    | none => simp [selections, selections_samples, h]
    | some f => cases ha : t.access <;> simp [selections, selections_samples, h, bytes]
  · cases hf : t.found with
    | none => simp [selections, selections_samples, h]
    | some f => cases ha : t.access <;> simp [selections, selections_samples, h, bytes]

theorem selections_all (i : Nat) (txs : List Transaction) : selections i none (txs.flatMap Transaction.lines) =
    ((txs.filter (·.radio = i)).map fun t => if t.found.isSome then bytes t.access else [], none) := by
  induction txs with
  | nil => rfl
  | cons t txs ih =>
    rw [List.flatMap_cons, selections_append, selections_lines]
    dsimp only
    rw [ih]
    by_cases h : t.radio = i <;> simp [h]

/-- **C87**: whenever no access is in progress, each radio has seen, in the selections of its chip select line, the bytes
of the calls made for it, in order, whole, and nothing else: nothing for calls that returned false, and nothing of other
radios. -/
theorem c87_selections (l : List (Nat × Nat × Act)) (hn : (Bus.run {} l).owner = none) (i : Nat) :
    selections i none (Bus.run {} l).log =
      (((Bus.run {} l).results.filter (·.radio = i)).map fun r => if r.retval then bytes r.access else [], none) := by
  obtain ⟨txs, part, h⟩ := Ok.init.run l
  rw [h.log, h.free hn, List.append_nil, selections_all, h.results, List.filter_map, List.map_map]
  rfl

/-- **C87**: the bus is released: if the radio that holds it goes on, six steps more than a second after its call
are enough, whatever its busy line does. -/
theorem c87_released (l : List (Nat × Nat × Act)) (i : Nat) (ho : (Bus.run {} l).owner = some i) : ∃ called,
    ∀ b : List (Nat × Bool × Bool), 6 ≤ b.length → (∀ x ∈ b, called + 1000000 < x.1) →
      ((Bus.run {} l).run (b.map fun x => (i, x.1, .go x.2.1 x.2.2))).owner = none := by
  obtain ⟨txs, part, h⟩ := Ok.init.run l
  generalize Bus.run {} l = s at *
  have hp := h.held i ho
  -- after the end nothing happens
  have hout : ∀ (b : List (Nat × Bool × Bool)) (s : Bus), s.phase i = .out → s.owner = none →
      (s.run (b.map fun x => (i, x.1, .go x.2.1 x.2.2))).owner = none := by
    intro b
    induction b with
    | nil => intro s _ h; exact h
    | cons x b ih =>
      intro s h1 h2
      have : s.step i x.1 (.go x.2.1 x.2.2) = s := by simp [Bus.step, Bus.go, h1]
      show ((s.step i x.1 (.go x.2.1 x.2.2)).run _).owner = none
      rw [this]
      exact ih s h1 h2
  have hunlock : ∀ (a : Access) (t : Nat) (r : Bool) (b : List (Nat × Bool × Bool)) (s : Bus), 1 ≤ b.length → s.phase i = .unlock a t r →
      (s.run (b.map fun x => (i, x.1, .go x.2.1 x.2.2))).owner = none := by
    intro a t r b s hl h1
    match b, hl with
    | x :: b, _ =>
      show ((s.step i x.1 (.go x.2.1 x.2.2)).run _).owner = none
      refine hout b _ ?_ ?_ <;> simp [Bus.step, Bus.go, h1, Bus.at]
  have hdeselect : ∀ (a : Access) (t : Nat) (r : Bool) (b : List (Nat × Bool × Bool)) (s : Bus), 2 ≤ b.length → s.phase i = .deselect a t r →
      (s.run (b.map fun x => (i, x.1, .go x.2.1 x.2.2))).owner = none := by
    intro a t r b s hl h1
    match b, hl with
    | x :: b, hl =>
      show ((s.step i x.1 (.go x.2.1 x.2.2)).run _).owner = none
      exact hunlock a t r b _ (by simpa using hl) (by simp [Bus.step, Bus.go, h1, Bus.at])
  have hpayload : ∀ (a : Access) (t : Nat) (b : List (Nat × Bool × Bool)) (s : Bus), 3 ≤ b.length → s.phase i = .payload a t →
      (s.run (b.map fun x => (i, x.1, .go x.2.1 x.2.2))).owner = none := by
    intro a t b s hl h1
    match b, hl with
    | x :: b, hl =>
      show ((s.step i x.1 (.go x.2.1 x.2.2)).run _).owner = none
      exact hdeselect a t true b _ (by simpa using hl) (by simp [Bus.step, Bus.go, h1, Bus.at])
  have hopcode : ∀ (a : Access) (t : Nat) (b : List (Nat × Bool × Bool)) (s : Bus), 4 ≤ b.length → s.phase i = .opcode a t →
      (s.run (b.map fun x => (i, x.1, .go x.2.1 x.2.2))).owner = none := by
    intro a t b s hl h1
    match b, hl with
    | x :: b, hl =>
      show ((s.step i x.1 (.go x.2.1 x.2.2)).run _).owner = none
      exact hpayload a t b _ (by simpa using hl) (by simp [Bus.step, Bus.go, h1, Bus.at])
  have hpoll : ∀ (a : Access) (t : Nat) (b : List (Nat × Bool × Bool)) (s : Bus), 5 ≤ b.length → (∀ x ∈ b, t + 1000000 < x.1) →
      s.phase i = .poll a t → (s.run (b.map fun x => (i, x.1, .go x.2.1 x.2.2))).owner = none := by
    intro a t b s hl hb h1
    match b, hl with
    | x :: b, hl =>
      show ((s.step i x.1 (.go x.2.1 x.2.2)).run _).owner = none
      have hx := hb x (by simp)
      simp only [Bus.step, Bus.go, h1, Bus.pass]
      split
      · exact hopcode a t b _ (by simpa using hl) (by simp [Bus.at])
      · rw [if_pos (by omega)]
        exact hdeselect a t false b _ (by simp at hl ⊢; omega) (by simp [Bus.at])
  generalize hq : s.phase i = q at hp
  cases hp with
  | select a t =>
    refine ⟨t, fun b hl hb => ?_⟩
    match b, hl with
    | x :: b, hl =>
      show ((s.step i x.1 (.go x.2.1 x.2.2)).run _).owner = none
      exact hpoll a t b _ (by simpa using hl) (fun y hy => hb y (by simp [hy])) (by simp [Bus.step, Bus.go, hq, Bus.at])
  | poll a t => exact ⟨t, fun b hl hb => hpoll a t b s (by omega) hb hq⟩
  | opcode a t => exact ⟨t, fun b hl hb => hopcode a t b s (by omega) hq⟩
  | payload a t => exact ⟨t, fun b hl hb => hpayload a t b s (by omega) hq⟩
  | ready a t => exact ⟨t, fun b hl hb => hdeselect a t _ b s (by omega) hq⟩
  | gaveUp a t => exact ⟨t, fun b hl hb => hdeselect a t _ b s (by omega) hq⟩
  | unlock tx => exact ⟨tx.called, fun b hl hb => hunlock _ _ _ b s (by omega) hq⟩

/-- A write by radio 1 with a wait, while radio 2 waits for the bus. -/
def demo : List (Nat × Nat × Act) :=
  [(1, 0, .call (.write [0x83, 0, 0, 0] [])), (2, 5, .call (.read [0x12, 0] 2)), (1, 10, .go true true),
    (2, 12, .go true true), (1, 20, .go true true), (1, 30, .go true true), (1, 340, .go true false), (2, 345, .go true true),
    (1, 350, .go true true), (1, 360, .go true true), (1, 370, .go true true), (1, 380, .go true true)]

example : (Bus.run {} demo).owner = none ∧
    (Bus.run {} demo).results = [⟨1, .write [0x83, 0, 0, 0] [], 0, true⟩] ∧
    (Bus.run {} demo).log = [.nss 1 true 20, .sample 1 true 30, .sample 1 false 340, .out [0x83, 0, 0, 0], .out [],
      .nss 1 false 370] ∧ (Bus.run {} (demo.take 8)).owner = some 1 := by decide

/-- **C87** is false of the time: radio 2 waits for the bus, which radio 1 holds until it gives up.  Then radio 2 gives up
as well, 11 us after it was selected and the first time it is found busy. -/
theorem c87_impatient : ∃ l : List (Nat × Nat × Act), l.Pairwise (fun x y => x.2.1 ≤ y.2.1) ∧ (Bus.run {} l).owner = none ∧
    (Bus.run {} l).results = [⟨1, .write [1] [], 0, false⟩, ⟨2, .write [2] [], 5, false⟩] ∧
    (Bus.run {} l).log = [.nss 1 true 10, .sample 1 true 1000001, .nss 1 false 1000002,
      .nss 2 true 1000004, .sample 2 true 1000015, .nss 2 false 1000016] := by
  refine ⟨[(1, 0, .call (.write [1] [])), (2, 5, .call (.write [2] [])), (1, 8, .go true true), (1, 10, .go true true),
    (1, 1000001, .go true true), (1, 1000002, .go true true), (1, 1000003, .go true true), (2, 1000004, .go true true),
    (2, 1000004, .go true true), (2, 1000015, .go true true), (2, 1000016, .go true true), (2, 1000017, .go true true)], ?_⟩
  decide

/-! ## Bus clock of the WL55 -/

theorem prescaleLoop_spec (hz : Nat) : ∀ n spi, prescaleLoop hz n spi ≤ n ∧
    (prescaleLoop hz n spi < n → spi / 2 ^ (prescaleLoop hz n spi + 1) ≤ hz) ∧
    ∀ k < prescaleLoop hz n spi, hz < spi / 2 ^ (k + 1) := by
  intro n
  induction n with
  | zero => intro spi; simp [prescaleLoop]
  | succ n ih =>
    intro spi
    unfold prescaleLoop
    rw [Nat.shiftRight_eq_div_pow]
    split
    · next h => exact ⟨by omega, fun _ => by simpa using h, fun k hk => by omega⟩
    · next h =>
      obtain ⟨h1, h2, h3⟩ := ih (spi / 2 ^ 1)
      have hd : ∀ k, spi / 2 ^ 1 / 2 ^ k = spi / 2 ^ (k + 1) := by
        intro k; rw [Nat.div_div_eq_div_mul, ← Nat.pow_add, Nat.add_comm 1 k]
      refine ⟨by omega, fun hl => ?_, fun k hk => ?_⟩
      · have := h2 (by omega)
        rwa [hd] at this
      · cases k with
        | zero => omega
        | succ k =>
          have := h3 k (by omega)
          rwa [hd] at this

/-- **C87**: the WL55 runs its bus at the highest frequency that is a half, a quarter, ... or a 256th of its clock and not
above the one configured, for every clock and configuration in which there is one; the configuration range (1 to 10 MHz)
with clocks up to 256 MHz is among them.  Otherwise a table is read beyond its end (`c87_wl55_overrun`). -/
theorem c87_wl55_clock (clock hz : Nat) (h : clock / 256 ≤ hz) : prescaleIndex clock hz < 8 ∧
    clock / 2 ^ (prescaleIndex clock hz + 1) ≤ hz ∧ ∀ k < prescaleIndex clock hz, hz < clock / 2 ^ (k + 1) := by
  obtain ⟨h1, h2, h3⟩ := prescaleLoop_spec hz 8 clock
  have hlt : prescaleLoop hz 8 clock < 8 := by
    refine Nat.lt_of_le_of_ne h1 fun he => ?_
    have := h3 7 (by omega)
    have h8 : (2 : Nat) ^ (7 + 1) = 256 := rfl
    rw [h8] at this
    omega
  exact ⟨hlt, h2 hlt, h3⟩

theorem c87_wl55_overrun (clock hz : Nat) (h : hz < clock / 256) : prescaleIndex clock hz = 8 := by
  unfold prescaleIndex
  obtain ⟨h1, h2, h3⟩ := prescaleLoop_spec hz 8 clock
  refine Nat.le_antisymm h1 (Nat.le_of_not_lt fun hlt => ?_)
  have h4 := h2 hlt
  have h5 : clock / 256 ≤ clock / 2 ^ (prescaleLoop hz 8 clock + 1) :=
    Nat.div_le_div_left (show 2 ^ (prescaleLoop hz 8 clock + 1) ≤ 2 ^ 8 from Nat.pow_le_pow_right (by decide) (by omega)) (Nat.pow_pos (by decide))
  omega

/-- 48 MHz and the default of 6 MHz: an eighth. -/
example : prescaleIndex 48000000 6000000 = 2 := by decide

end Spi
end LDL
