import Verif.Lemmas.Irq
import Verif.Props.Sx126x

/-!
# C95: interrupts reach the MAC (SX1261, SX1262, WL55)
-/

namespace LDL
open LDL.Spec LDL.Spec.Sx126x LDL.Sx126x LDL.Spec.Irq

theorem follow_start {cfg : Cfg} {m : Mac} (hr : Reachable cfg m) (l l' : List Event) (hl : m.out = l ++ l') :
    ∃ p, follow .unknown l = some p := by
  obtain ⟨p, h1, _⟩ := reachable_says hr
  rw [hl, follow_append] at h1
  obtain ⟨q, h2, _⟩ := Option.bind_eq_some_iff.1 h1
  exact ⟨q, h2⟩

/-- **C95** on the STM32WL55: at any time in any execution the event handler of the MAC has been called exactly once for
each transmission and each receive window that has ended, except that the call for the last one may be due. -/
theorem c95_wl55 {cfg : Cfg} (hE : ∀ k, BlockFn (cfg.E k)) {m : Mac} (hr : Reachable cfg m) (b : Board) (c : Chip)
    (l l' : List Event) (hl : m.out = l ++ l') (d' : Driver) (w' : Wl) (k : Nat)
    (hp : Wl.Plays Ready b.driver (Wl.initial c) l d' w' k) :
    k = w'.nvic.calls + if w'.due then 1 else 0 := by
  obtain ⟨p, h1⟩ := follow_start hr l l' hl
  refine (Irq.plays_inv hp (board_in b c) ⟨rfl, Irq.sense_sensed _, fun _ => ⟨rfl, rfl⟩, fun h => ?_⟩ h1
    fun y hy => reachable_fine hE hr y (by rw [hl]; exact List.mem_append_left _ hy)).count
  rcases h with h | h <;> cases h

/-- **C95** on the STM32WL55: while a transmission or a receive window goes on the interrupt is enabled and not pending,
so its end makes a call due. -/
theorem c95_wl55_ready {cfg : Cfg} (hE : ∀ k, BlockFn (cfg.E k)) {m : Mac} (hr : Reachable cfg m) (b : Board) (c : Chip)
    (l l' : List Event) (hl : m.out = l ++ l') (d' : Driver) (w' : Wl) (k : Nat)
    (hp : Wl.Plays Ready b.driver (Wl.initial c) l d' w' k) (ha : awaited l = true) (c2 : Chip)
    (h2 : w'.chip.Acts c2) : w'.due = false ∧ (w'.become c2).due = true := by
  have h := c95_wl55 hE hr b c l l' hl d' w' k hp
  have h' := c95_wl55 hE hr b c l l' hl d' _ _ (.acts hp h2)
  rw [if_pos ha] at h'
  have e : (w'.become c2).nvic.calls = w'.nvic.calls := rfl
  rw [e] at h'
  cases hd : w'.due <;> cases hd' : (w'.become c2).due <;> simp_all
  omega

/-- **C95** on the SX1261 and SX1262: at any time in any execution the event handler of the MAC has been called exactly once
for each transmission and each receive window that has ended.  The chip is not in the middle of something when the
device starts. -/
theorem c95_sx126x {cfg : Cfg} (hE : ∀ k, BlockFn (cfg.E k)) {m : Mac} (hr : Reachable cfg m) (b : Board) (c : Chip)
    (hc : c.mode ≠ .rx ∧ c.mode ≠ .tx) (l l' : List Event) (hl : m.out = l ++ l') (d' : Driver) (w' : Pin) (k : Nat)
    (hp : Pin.Plays Ready b.driver ⟨c, 0⟩ l d' w' k) : k = w'.calls := by
  obtain ⟨p, h1⟩ := follow_start hr l l' hl
  refine (Irq.pins_inv hp (board_in b c) ⟨rfl, fun _ h => h.elim hc.1 hc.2, fun h => ?_⟩ h1
    fun y hy => reachable_fine hE hr y (by rw [hl]; exact List.mem_append_left _ hy)).count
  rcases h with h | h <;> cases h

/-! ### Cases and exceptions -/

/-- What can happen next: an event at the MAC (with the accesses that fail), the end of what the chip does, the
handler. -/
inductive Demo.Next
  | event (ev : Event) (busy : Nat → Bool)
  | ends
  | irq

/-- The handler is called as soon as it is due. -/
def Demo.prompt (w : Wl) : Wl := if w.due then w.irq else w

/-- History, driver, chip and controller, ended operations. -/
structure Demo.Wl55 where
  l : List Event
  d : Driver
  w : Wl
  k : Nat

def Demo.ended (c : Chip) (x : Nat) : Chip := { c with mode := .standbyRc, irq := c.irq ||| (x &&& c.irqMask) }

def Demo.next (s : Demo.Wl55) : Demo.Next → Option Demo.Wl55
  | .event ev busy =>
    if s.w.due then none
    else (busOps s.d s.w.chip busy ev).map fun x =>
      { s with l := s.l ++ [ev], d := x.1, w := x.2.foldl (fun w o => Demo.prompt (w.op o)) s.w }
  | .ends =>
    match s.w.chip.mode with
    | .tx => some { s with w := s.w.become (Demo.ended s.w.chip 0x001), k := if awaited s.l then s.k + 1 else s.k }
    | .rx => some { s with w := s.w.become (Demo.ended s.w.chip 0x200), k := if awaited s.l then s.k + 1 else s.k }
    | _ => none
  | .irq => if s.w.due then some { s with w := s.w.irq } else none

theorem Demo.prompt_runs (ops : List BusOp) (w : Wl) : Wl.Runs w ops (ops.foldl (fun w o => Demo.prompt (w.op o)) w) := by
  induction ops generalizing w with
  | nil => exact .nil w
  | cons o l ih =>
    refine .op w o ?_
    have h := ih (Demo.prompt (w.op o))
    rw [List.foldl_cons]
    cases hd : (w.op o).due
    · have : Demo.prompt (w.op o) = w.op o := by unfold Demo.prompt; rw [hd]; rfl
      rw [this] at h ⊢
      exact h
    · have : Demo.prompt (w.op o) = (w.op o).irq := by unfold Demo.prompt; rw [hd]; rfl
      rw [this] at h ⊢
      exact .irq _ hd h

theorem Demo.next_plays {B : (Nat → Bool) → Prop} {d : Driver} {w : Wl} {s s' : Demo.Wl55} {n : Demo.Next}
    (h : Wl.Plays B d w s.l s.d s.w s.k) (hb : ∀ ev busy, n = .event ev busy → B busy) (hn : Demo.next s n = some s') :
    Wl.Plays B d w s'.l s'.d s'.w s'.k := by
  cases n with
  | event ev busy =>
    have hn : (if s.w.due then none else (busOps s.d s.w.chip busy ev).map _) = some s' := hn
    split at hn
    · cases hn
    · next hd =>
      obtain ⟨x, h1, h2⟩ := Option.map_eq_some_iff.1 hn
      cases h2
      exact .event h (Bool.eq_false_iff.2 hd) ev busy (hb ev busy rfl) h1 (Demo.prompt_runs _ _)
  | ends =>
    simp only [Demo.next] at hn
    split at hn
    · next hm => cases hn; exact .acts h (.txDone _ _ hm (by decide))
    · next hm => cases hn; exact .acts h (.rxTimeout _ _ hm (by decide))
    · cases hn
  | irq =>
    have hn : (if s.w.due then some _ else none) = some s' := hn
    split at hn
    · next hd => cases hn; exact .irq h hd
    · cases hn

/-- What has happened after a list of steps. -/
def Demo.wl55 (l : List Demo.Next) : Option Demo.Wl55 :=
  l.foldl (fun o n => o.bind fun s => Demo.next s n) (some ⟨[], Demo.board126.driver, Wl.initial Demo.chip126, 0⟩)

theorem Demo.wl55_plays (B : (Nat → Bool) → Prop) (l : List Demo.Next) (hb : ∀ ev busy, Demo.Next.event ev busy ∈ l → B busy)
    (s : Demo.Wl55) (h : Demo.wl55 l = some s) :
    Wl.Plays B Demo.board126.driver (Wl.initial Demo.chip126) s.l s.d s.w s.k := by
  have gen : ∀ (l : List Demo.Next), (∀ ev busy, Demo.Next.event ev busy ∈ l → B busy) → ∀ (s0 s : Demo.Wl55),
      Wl.Plays B Demo.board126.driver (Wl.initial Demo.chip126) s0.l s0.d s0.w s0.k →
      l.foldl (fun o n => o.bind fun s => Demo.next s n) (some s0) = some s →
      Wl.Plays B Demo.board126.driver (Wl.initial Demo.chip126) s.l s.d s.w s.k := by
    intro l
    induction l with
    | nil => intro _ s0 s h0 h; cases h; exact h0
    | cons n l ih =>
      intro hb s0 s h0 h
      rw [List.foldl_cons] at h
      cases hn : Demo.next s0 n with
      | none =>
        have : ∀ l : List Demo.Next, l.foldl (fun o n => o.bind fun s => Demo.next s n) none = none := by
          intro l
          induction l with
          | nil => rfl
          | cons _ _ ih => exact ih
        rw [show (some s0).bind (fun s => Demo.next s n) = none from hn, this] at h
        cases h
      | some s1 =>
        rw [show (some s0).bind (fun s => Demo.next s n) = some s1 from hn] at h
        exact ih (fun ev busy hm => hb ev busy (List.mem_cons_of_mem _ hm)) s1 s
          (Demo.next_plays h0 (fun ev busy he => hb ev busy (by rw [he]; exact List.mem_cons_self ..)) hn) h
  exact gen l hb _ s .start h

/-- Events, all accesses succeed. -/
def Demo.evs (l : List Event) : List Demo.Next := l.map fun ev => .event ev fun _ => false

/-- A transmission and two windows. -/
def Demo.exchange : List Demo.Next :=
  Demo.evs (Demo.toTx ++ [Demo.uplink]) ++ [.ends, .irq] ++ Demo.evs [.getStatus, .setMode .hold, .setMode .rx, Demo.window] ++
  [.ends, .irq] ++ Demo.evs [.getStatus, .setMode .hold, .setMode .rx, Demo.window] ++ [.ends]

/-- C95 applies to a transmission and two windows: two calls have been made and the third is due. -/
example : (Demo.wl55 Demo.exchange).map (fun s => (s.k, s.w.nvic.calls, s.w.due)) = some (3, 2, true) := by decide +kernel

/-- **C95** needs every access to succeed: if the interrupts could not be cleared after RX1, the handler is called as soon as
RX2 starts, and the interrupt is then off when RX2 ends. -/
theorem c95_stale : ∃ s, Demo.wl55 (Demo.evs (Demo.toTx.dropLast ++ [.setMode .rx, Demo.window]) ++ [.ends, .irq] ++
      [.event (.setMode .hold) (fun i => i == 0)] ++ Demo.evs [.setMode .rx, Demo.window]) = some s ∧
    Wl.Plays Anyhow Demo.board126.driver (Wl.initial Demo.chip126) s.l s.d s.w s.k ∧
    s.w.chip.mode = .rx ∧ s.k = 1 ∧ s.w.nvic.calls = 2 ∧ s.w.nvic.enabled = false := by
  cases h : Demo.wl55 (Demo.evs (Demo.toTx.dropLast ++ [.setMode .rx, Demo.window]) ++ [.ends, .irq] ++
      [.event (.setMode .hold) (fun i => i == 0)] ++ Demo.evs [.setMode .rx, Demo.window]) with
  | none =>
    have : (Demo.wl55 (Demo.evs (Demo.toTx.dropLast ++ [.setMode .rx, Demo.window]) ++ [.ends, .irq] ++
      [.event (.setMode .hold) (fun i => i == 0)] ++ Demo.evs [.setMode .rx, Demo.window])).isSome = true := by decide +kernel
    rw [h] at this
    cases this
  | some s =>
    have key : (Demo.wl55 (Demo.evs (Demo.toTx.dropLast ++ [.setMode .rx, Demo.window]) ++ [.ends, .irq] ++
      [.event (.setMode .hold) (fun i => i == 0)] ++ Demo.evs [.setMode .rx, Demo.window])).map
        (fun s => (s.w.chip.mode, s.k, s.w.nvic.calls, s.w.nvic.enabled)) = some (.rx, 1, 2, false) := by decide +kernel
    rw [h] at key
    have key := Option.some.inj key
    simp only [Prod.mk.injEq] at key
    exact ⟨s, rfl, Demo.wl55_plays _ _ (fun _ _ _ => trivial) s h, key⟩

end LDL
