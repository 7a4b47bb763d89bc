import Verif.Spec.Debug127
import Verif.Lemmas.Sx127xLoop
import Verif.Props.Sx127x

/-!
# The debug build of the SX127x driver (C98)
-/

namespace LDL
open Spec.Sx127x
open Spec.Sx127x.Debug (Access shown isAccess Traffic)
open Sx127x (Driver)
open Sx127x.Debug (Log LOG_SIZE)

namespace Debug127

/-- A read of a register other than the FIFO. -/
def harmless (op : BusOp) : Prop := ∃ a, a < 128 ∧ a ≠ 0 ∧ op = Sx127x.readReg a

theorem run_harmless (c : Chip) (ops : List BusOp) (h : ∀ op ∈ ops, harmless op) : c.run ops = c := by
  induction ops with
  | nil => exact Sx127x.run_nil c
  | cons op rest ih =>
    obtain ⟨a, ha, h0, rfl⟩ := h op (by simp)
    rw [Sx127x.run_cons, Sx127x.exec_readReg c a ha h0]
    exact ih fun x hx => h x (by simp [hx])

theorem harmless_all {regs : List Nat} (h : ∀ a ∈ regs, a < 128 ∧ a ≠ 0) :
    ∀ op ∈ regs.map Sx127x.readReg, harmless op := by
  intro op hop
  obtain ⟨a, ha, rfl⟩ := List.mem_map.1 hop
  exact ⟨a, (h a ha).1, (h a ha).2, rfl⟩

theorem run_diagnostics (c : Chip) : c.run Sx127x.Debug.rxDiagnostics = c :=
  run_harmless c _ (harmless_all (regs := [0x01, 0x12, 0x18, 0x1c, 0x14, 0x15, 0x16, 0x17, 0x13, 0x28, 0x29, 0x2a]) (by decide))

theorem run_setPower (c : Chip) (d : Driver) (dbm : Int) :
    c.run (Sx127x.Debug.setPower d dbm) = c.run (Sx127x.setPower d dbm) := by
  unfold Sx127x.Debug.setPower
  rw [Sx127x.run_append]
  generalize c.run (Sx127x.setPower d dbm) = c1
  cases d.type
  · exact run_harmless c1 _ (harmless_all (regs := [0x09, 0x5a]) (by decide))
  · exact run_harmless c1 _ (harmless_all (regs := [0x09, 0x4d]) (by decide))

theorem run_readModem (c : Chip) (d : Driver) : c.run (Sx127x.Debug.readModem d) = c := by
  unfold Sx127x.Debug.readModem
  cases d.type
  · exact run_harmless c _ (harmless_all (regs := [0x1d, 0x1e]) (by decide))
  · exact run_harmless c _ (harmless_all (regs := [0x1d, 0x1e, 0x26]) (by decide))

theorem run_readTx (c : Chip) : c.run Sx127x.Debug.readTx = c :=
  run_harmless c _ (harmless_all
    (regs := [0x39, 0x33, 0x40, 0x12, 0x11, 0x0e, 0x0d, 0x22, 0x06, 0x07, 0x08]) (by decide))

theorem run_readRx (c : Chip) : c.run Sx127x.Debug.readRx = c :=
  run_harmless c _ (harmless_all
    (regs := [0x1f, 0x39, 0x0c, 0x23, 0x33, 0x40, 0x12, 0x11, 0x0d, 0x06, 0x07, 0x08]) (by decide))

theorem run_transmit (c : Chip) (d : Driver) (s : TxSetting) (data : Bytes) :
    c.run (Sx127x.Debug.transmit d s data) = c.run (Sx127x.transmit d s data) := by
  unfold Sx127x.Debug.transmit Sx127x.transmit
  rw [Sx127x.run_append, Sx127x.run_append, run_readTx, Sx127x.run_append, run_readModem]
  simp only [Sx127x.run_append, run_setPower]

theorem run_receive (c : Chip) (d : Driver) (s : RxSetting) :
    c.run (Sx127x.Debug.receive d s) = c.run (Sx127x.receive d s) := by
  unfold Sx127x.Debug.receive Sx127x.receive
  rw [Sx127x.run_append, Sx127x.run_append, run_readRx, Sx127x.run_append, run_readModem]
  simp only [Sx127x.run_append]

end Debug127

/-- **C98**: whatever the MAC asks of the radio, in whatever state radio and driver are, the debug build leaves both as the
normal build does. -/
theorem c98_same (d : Driver) (c : Chip) (ev : Event) : Spec.Sx127x.Debug.perform d c ev = perform d c ev := by
  cases ev with
  | setMode mode =>
    show (((Sx127x.setModeOps d mode c.reg).map _).map _) = (((Sx127x.setModeOps d mode c.reg).map _).map _)
    generalize Sx127x.setModeOps d mode c.reg = x
    cases x with
    | none => rfl
    | some ops =>
      simp only [Option.map_some, Sx127x.run_append]
      split
      · rw [Debug127.run_diagnostics]
      · rw [Sx127x.run_nil]
  | transmit t s data => exact congrArg (fun x => some (d, x)) (Debug127.run_transmit c d s data)
  | receive t s => exact congrArg (fun x => some (d, x)) (Debug127.run_receive c d s)
  | _ => rfl

/-- **C98**: the same histories are possible in both builds, so that C64 to C71, C92, C95 and C96 hold of the debug build. -/
theorem c98_histories (d : Driver) (c : Chip) (l : List Event) (d' : Driver) (c' : Chip) :
    Spec.Sx127x.Debug.Plays d c l d' c' ↔ Plays d c l d' c' := by
  constructor
  · intro h
    induction h with
    | start => exact .start
    | acts _ ha ih => exact .acts ih ha
    | event _ ev hp ih => exact .event ih ev (by rw [← c98_same]; exact hp)
  · intro h
    induction h with
    | start => exact .start
    | acts _ ha ih => exact .acts ih ha
    | event _ ev hp ih => exact .event ih ev (by rw [c98_same]; exact hp)

/-- **C98**: neither build touches the bus of a chip it has put into reset: the reset is the last the driver does. -/
theorem c98_reset_last (d d' : Driver) (rd : Nat → UInt8) (ops : List BusOp)
    (h : Sx127x.Debug.setMode d .reset rd = some (d', ops) ∨ Sx127x.setMode d .reset rd = some (d', ops)) :
    ops.getLast? = some (.mode .reset) := by
  rcases h with h | h
  · unfold Sx127x.Debug.setMode Sx127x.setModeOps at h
    simp only [Option.map_some, Option.some.injEq, Prod.mk.injEq] at h
    rw [← h.2]
    simp
  · unfold Sx127x.setMode Sx127x.setModeOps at h
    simp only [Option.map_some, Option.some.injEq, Prod.mk.injEq] at h
    rw [← h.2]
    rfl

/-- Reset out of a receive window: twelve registers are read first. -/
example : (Sx127x.Debug.setMode { type := .sx1276, mode := .rx, xtal := .crystal, pa := .boost, txGain := 0 } .reset fun _ => 0).map (fun x => x.2.length) = some 13 := by decide

/-! ## The log -/

namespace Debug127

theorem take_set_succ {α : Type} (l : List α) (n : Nat) (x : α) (h : n < l.length) : (l.set n x).take (n + 1) = l.take n ++ [x] := by
  rw [List.take_succ_eq_append_getElem (by simpa using h), List.take_set, List.set_eq_of_length_le (by simp)]
  simp

/-- Pushing, in general. -/
theorem pushAll_spec (as : List Access) (hs : ∀ a ∈ as, a.2 ≠ [] ∧ a.2.length ≤ 255) (g : Log) (hl : g.log.length = LOG_SIZE)
    (hp : g.pos ≤ LOG_SIZE) :
    ∃ g', g.pushAll as = some g' ∧ g'.log.length = LOG_SIZE ∧ g'.pos = min LOG_SIZE (g.pos + as.length) ∧
      g'.log.take g'.pos = (g.log.take g.pos ++ as.map shown).take LOG_SIZE := by
  induction as generalizing g with
  | nil =>
    refine ⟨g, rfl, hl, by simp; omega, ?_⟩
    rw [List.map_nil, List.append_nil, List.take_take]
    congr 1
    omega
  | cons a rest ih =>
    obtain ⟨h1, h2⟩ := hs a (by simp)
    have hrest : ∀ x ∈ rest, x.2 ≠ [] ∧ x.2.length ≤ 255 := fun x hx => hs x (by simp [hx])
    by_cases hg : g.pos < LOG_SIZE
    · obtain ⟨op, data⟩ := a
      cases data with
      | nil => exact absurd rfl h1
      | cons v vs =>
        have hpos : u8 (g.pos + 1) = g.pos + 1 := by
          have : LOG_SIZE = 20 := rfl
          unfold u8; omega
        have hlen : u8 (v :: vs).length = (v :: vs).length := Nat.mod_eq_of_lt (by simp only [] at h2 ⊢; omega)
        have hpush : g.push op (v :: vs) = some { g with
            log := g.log.set g.pos (shown (op, v :: vs)), pos := g.pos + 1 } := by
          unfold Log.push
          rw [if_pos hg]
          simp only []
          rw [if_pos (by omega), hpos, hlen]
          rfl
        obtain ⟨g', e1, e2, e3, e4⟩ := ih hrest { g with log := g.log.set g.pos (shown (op, v :: vs)), pos := g.pos + 1 }
          (by simpa using hl) (by show g.pos + 1 ≤ LOG_SIZE; omega)
        refine ⟨g', ?_, e2, ?_, ?_⟩
        · show (g.push op (v :: vs)).bind _ = _
          rw [hpush]; exact e1
        · rw [e3]; simp only [List.length_cons]; omega
        · rw [e4]
          simp only []
          rw [take_set_succ _ _ _ (by omega), List.map_cons, List.append_assoc, List.singleton_append]
    · have hpush : g.push a.1 a.2 = some { g with overflow := true } := by
        unfold Log.push
        rw [if_neg hg]
      obtain ⟨g', e1, e2, e3, e4⟩ := ih hrest { g with overflow := true } hl hp
      have hpe : g.pos = LOG_SIZE := by omega
      refine ⟨g', ?_, e2, ?_, ?_⟩
      · show (g.push a.1 a.2).bind _ = _
        rw [hpush]; exact e1
      · rw [e3]; simp only [List.length_cons]; omega
      · rw [e4]
        have : (g.log.take g.pos).length = LOG_SIZE := by rw [List.length_take]; omega
        rw [List.take_append_of_le_length (by simp only []; omega), List.take_append_of_le_length (by omega)]

end Debug127

/-- **C98** (partial): whatever a log of 20 elements holds, one call of the driver that makes any number of accesses of up to 255
bytes stays within the array and prints the accesses in order, as far as there is room. -/
theorem c98_log_partial (g : Log) (hl : g.log.length = 20) (as : List Access)
    (hs : ∀ a ∈ as, a.2 ≠ [] ∧ a.2.length ≤ 255) :
    ∃ g', g.call as = some ((as.map shown).take 20, g') ∧ g'.log.length = 20 := by
  obtain ⟨g', e1, e2, e3, e4⟩ := Debug127.pushAll_spec as hs g.reset hl (Nat.zero_le _)
  refine ⟨g'.flush.2, ?_, e2⟩
  unfold Log.call
  rw [e1]
  simp only [Option.map_some, Log.flush, e4]
  rfl

/-- Three accesses are printed. -/
example : ((Log.call { log := List.replicate 20 ⟨0, 0, 0⟩, pos := 0, overflow := false }
    [(0x81, [0x80]), (0x80, [1, 2, 3]), (0x12, [0x40])]).map fun x => x.1) =
    some [⟨0x81, 0x80, 1⟩, ⟨0x80, 1, 3⟩, ⟨0x12, 0x40, 1⟩] := by decide

/-- Every transmission and every receive window makes more than 20 accesses, the last being the one that starts the radio. -/
theorem debug_accesses (d : Driver) (tx : TxSetting) (data : Bytes) (rx : RxSetting) :
    20 < ((Sx127x.Debug.transmit d tx data).filter isAccess).length ∧
      ((Sx127x.Debug.transmit d tx data).filter isAccess).getLast? = some (.write [0x81] [0x83]) ∧
      20 < ((Sx127x.Debug.receive d rx).filter isAccess).length ∧
      ((Sx127x.Debug.receive d rx).filter isAccess).getLast? = some (.write [0x81] [0x86]) := by
  refine ⟨?_, ?_, ?_, ?_⟩
  · unfold Sx127x.Debug.transmit
    simp only [List.filter_append, List.length_append]
    have h1 : (Sx127x.Debug.readTx.filter isAccess).length = 11 := by decide
    have h3 : ((Sx127x.setFreq tx.freq).filter isAccess).length = 3 := rfl
    have h4 : (([Sx127x.writeReg Sx127x.RegSyncWord 0x34, Sx127x.writeReg Sx127x.RegInvertIQ 0x27,
      Sx127x.writeReg Sx127x.RegDioMapping1 0x40, Sx127x.writeReg Sx127x.RegIrqFlags 0xff,
      Sx127x.writeReg Sx127x.RegIrqFlagsMask 0xf7, Sx127x.writeReg Sx127x.RegFifoTxBaseAddr 0,
      Sx127x.writeReg Sx127x.RegFifoAddrPtr 0, Sx127x.writeReg Sx127x.LoraRegPayloadLength data.length,
      Sx127x.burstWrite Sx127x.RegFifo data] : List BusOp).filter isAccess).length = 9 := rfl
    omega
  · unfold Sx127x.Debug.transmit
    rw [List.filter_append, List.getLast?_append]
    rfl
  · unfold Sx127x.Debug.receive
    simp only [List.filter_append, List.length_append]
    have h1 : (Sx127x.Debug.readRx.filter isAccess).length = 12 := by decide
    have h3 : ((Sx127x.setFreq rx.freq).filter isAccess).length = 3 := rfl
    have h4 : (([Sx127x.writeReg Sx127x.RegSymbTimeoutLsb (u8 (Sx127x.symbTimeout rx.timeout)),
      Sx127x.writeReg Sx127x.RegSyncWord 0x34, Sx127x.writeReg Sx127x.RegLna 0x23,
      Sx127x.writeReg Sx127x.RegPayloadMaxLength rx.max, Sx127x.writeReg Sx127x.RegInvertIQ (u8 (0x40 + 0x27)),
      Sx127x.writeReg Sx127x.RegDioMapping1 0, Sx127x.writeReg Sx127x.RegIrqFlags 0xff,
      Sx127x.writeReg Sx127x.RegIrqFlagsMask 0x3f, Sx127x.writeReg Sx127x.RegFifoAddrPtr 0] : List BusOp).filter isAccess).length
        = 9 := rfl
    omega
  · unfold Sx127x.Debug.receive
    rw [List.filter_append, List.getLast?_append]
    rfl

/-- **C98** needs the condition: the log has no room for all accesses of a transmission, nor for those of a receive window. What
is printed is never complete: the access that starts the radio is missing, and nothing tells so. -/
theorem c98_log_not (g : Log) (hl : g.log.length = 20) (d : Driver) (tx : TxSetting) (data : Bytes) (rx : RxSetting)
    (as : List Access) (hs : ∀ a ∈ as, a.2 ≠ [] ∧ a.2.length ≤ 255)
    (ht : Traffic (Sx127x.Debug.transmit d tx data) as ∨ Traffic (Sx127x.Debug.receive d rx) as) :
    ∃ printed g', g.call as = some (printed, g') ∧ printed.length < as.length ∧ g'.overflow = false := by
  have hn : 20 < as.length := by
    have h := debug_accesses d tx data rx
    rcases ht with ht | ht
    · rw [← ht.length_eq]; exact h.1
    · rw [← ht.length_eq]; exact h.2.2.1
  obtain ⟨g', e1, _, _, e4⟩ := Debug127.pushAll_spec as hs g.reset hl (Nat.zero_le _)
  refine ⟨(as.map shown).take 20, g'.flush.2, ?_, ?_, rfl⟩
  · unfold Log.call
    rw [e1]
    simp only [Option.map_some, Log.flush, e4]
    rfl
  · rw [List.length_take]; omega

/-- The accesses of a receive window at 868.1 MHz, with what a chip answers; the log is empty before. -/
example : ∃ as : List Access, (∀ a ∈ as, a.2 ≠ [] ∧ a.2.length ≤ 255) ∧
    Traffic (Sx127x.Debug.receive (Sx127x.init .sx1276 .crystal .auto 0) { freq := 868100000, bw := .b125, sf := 7, timeout := 8, max := 64 }) as := by
  let ops := (Sx127x.Debug.receive (Sx127x.init .sx1276 .crystal .auto 0)
    { freq := 868100000, bw := .b125, sf := 7, timeout := 8, max := 64 }).filter isAccess
  refine ⟨ops.map fun | .write op data => (op.headD 0, data) | .read op size => (op.headD 0, List.replicate size 0) | .mode _ => (0, []),
    by decide +kernel, ?_⟩
  unfold Traffic
  rw [List.forall₂_map_right_iff, List.forall₂_same]
  intro x hx
  have hall : ops.all (fun | .write op _ => op == [op.headD 0] | .read op _ => op == [op.headD 0] | .mode _ => false) = true := by
    decide +kernel
  have h := List.all_eq_true.1 hall x hx
  cases x with
  | mode m => exact absurd h (by simp)
  | write op data => exact ⟨by simpa using h, rfl⟩
  | read op size => exact ⟨by simpa using h, by simp⟩

end LDL
