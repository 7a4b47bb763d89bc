import Verif.Lemmas.MacCommands
import Mathlib.Logic.Function.Iterate

/-!
# C08, C09 (first half): MAC commands

`Spec.parseCommands`, `Spec.encodeCommand` (Spec/MacCommands.lean) are written from the LoRaWAN
specification.  `MacCmd.commands` is the model of the parsing loop.

The model (like the code) reads `Period` and `Max_Retries` of the 1.1 command ForceRejoinReq from bits
12:10 and 9:7 instead of 13:11 and 10:8 (`c08_force_rejoin_misread`), so C08 holds for command lists
without a ForceRejoinReq (always so in 1.0.x), and up to these two fields in general.
-/

namespace LDL
open LDL.Stream LDL.MacCmd

theorem loop_eq {v11 : Bool} {n m : Nat} {s : Stream} {xs : Bytes} (h : At s xs)
    (hn : xs.length < n) (hm : xs.length ≤ m) :
    (loop v11 n s).map eraseRejoin = (Spec.parseCommandsAux v11 m xs).map eraseRejoin := by
  induction n generalizing m s xs with
  | zero => omega
  | succ n ih =>
    have hs := step_all (v11 := v11) h
    rcases m with _ | m
    · have : xs = [] := List.length_eq_zero_iff.mp (by omega)
      subst this
      simp only [Step, Spec.nextCommand] at hs
      rcases hg : getDownCommand v11 s with ⟨c, s'⟩
      simp only [hg] at hs
      subst hs
      simp [loop, hg, Spec.parseCommandsAux]
    · simp only [Step] at hs
      rcases hg : getDownCommand v11 s with ⟨c, s'⟩
      simp only [hg] at hs
      rcases hp : Spec.nextCommand v11 xs with _ | ⟨c', r⟩
      · simp only [hp] at hs
        subst hs
        simp [loop, hg, Spec.parseCommandsAux, hp]
      · simp only [hp] at hs
        obtain ⟨c'', rfl, h2, h3, h4⟩ := hs
        simp only [loop, hg, Spec.parseCommandsAux, hp, List.map_cons, h2]
        rw [ih (m := m) h3 (by omega) (by omega)]

/-- **C08**, for all byte strings: the commands the device sees are those of the specification's parser,
which stops at the first unknown CID or truncated command.  `eraseRejoin` blanks the fields `Period` and
`Max_Retries` of ForceRejoinReq and nothing else. -/
theorem c08_parser_is_spec_partial (v11 : Bool) (bs : Bytes) (h : bs.length ≤ 255) :
    (commands v11 bs).map eraseRejoin = (Spec.parseCommands v11 bs).map eraseRejoin :=
  loop_eq (at_init bs h) (by omega) (by omega)

/-- Whether a command is a ForceRejoinReq. -/
def isForceRejoin : DownCmd → Bool
  | .forceRejoin .. => true
  | _ => false

theorem eraseRejoin_id {c : DownCmd} (h : isForceRejoin c = false) : eraseRejoin c = c := by
  cases c <;> simp_all [eraseRejoin, isForceRejoin]

theorem isForceRejoin_erase (c : DownCmd) : isForceRejoin (eraseRejoin c) = isForceRejoin c := by
  cases c <;> rfl

theorem eraseRejoin_inj {a b : List DownCmd} (h : a.map eraseRejoin = b.map eraseRejoin)
    (hb : ∀ c ∈ b, isForceRejoin c = false) : a = b := by
  induction b generalizing a with
  | nil => simpa using h
  | cons c b ih =>
    rcases a with _ | ⟨d, a⟩
    · simp at h
    · simp only [List.map_cons, List.cons.injEq] at h
      rw [ih h.2 (fun x hx => hb x (by simp [hx]))]
      have hc := hb c (by simp)
      have hd : isForceRejoin d = false := by rw [← isForceRejoin_erase, h.1, isForceRejoin_erase, hc]
      rw [← eraseRejoin_id hc, ← eraseRejoin_id hd, h.1]

theorem nextCommand_v10 {bs r : Bytes} {c : DownCmd}
    (h : Spec.nextCommand false bs = some (c, r)) : isForceRejoin c = false := by
  rcases bs with _ | ⟨cid, bs⟩
  · simp [Spec.nextCommand] at h
  · simp only [Spec.nextCommand] at h
    split at h <;> first | (simp only [Option.some.injEq, Prod.mk.injEq] at h; obtain ⟨rfl, _⟩ := h; rfl) | simp at h

theorem parse_v10 (n : Nat) (bs : Bytes) :
    ∀ c ∈ Spec.parseCommandsAux false n bs, isForceRejoin c = false := by
  induction n generalizing bs with
  | zero => simp [Spec.parseCommandsAux]
  | succ n ih =>
    intro c hc
    simp only [Spec.parseCommandsAux] at hc
    rcases hp : Spec.nextCommand false bs with _ | ⟨c', r⟩
    · simp [hp] at hc
    · simp only [hp, List.mem_cons] at hc
      rcases hc with rfl | hc
      · exact nextCommand_v10 hp
      · exact ih r c hc

/-- **C08** for protocol 1.0.x: exact for every byte string. -/
theorem c08_parser_is_spec_v10 (bs : Bytes) (h : bs.length ≤ 255) :
    commands false bs = Spec.parseCommands false bs :=
  eraseRejoin_inj (c08_parser_is_spec_partial false bs h) (parse_v10 _ _)

/-- Not only the empty list: LinkADRReq, DevStatusReq, then an unknown tag. -/
example : commands false [3, 0x51, 7, 0, 0x61, 6, 0x80, 6] =
    [.linkADR 5 1 7 6 1, .devStatus] := by decide

/-- **C08 is false of ForceRejoinReq** (1.1): Period 1, Max_Retries 0 is read as Period 2. -/
theorem c08_force_rejoin_misread :
    Spec.parseCommands true [14, 0x00, 0x08] = [.forceRejoin 1 0 0 0] ∧
    commands true [14, 0x00, 0x08] = [.forceRejoin 2 0 0 0] := by decide

theorem next_le2 {m : Nat} (h : m < 65536) (r : Bytes) :
    ∃ a b, Spec.le 2 m ++ r = a :: b :: r ∧ Spec.leValue [a, b] = m := by
  refine ⟨_, _, rfl, ?_⟩
  have := leValue_le 2 m
  rw [Nat.mod_eq_of_lt (by simpa using h)] at this
  exact this

theorem next_le3 {m : Nat} (h : m < 2 ^ 24) (r : Bytes) :
    ∃ a b c, Spec.le 3 m ++ r = a :: b :: c :: r ∧ Spec.leValue [a, b, c] = m := by
  refine ⟨_, _, _, rfl, ?_⟩
  have := leValue_le 3 m
  rw [Nat.mod_eq_of_lt (by simpa using h)] at this
  exact this

theorem next_le4 {m : Nat} (h : m < 2 ^ 32) (r : Bytes) :
    ∃ a b c d, Spec.le 4 m ++ r = a :: b :: c :: d :: r ∧ Spec.leValue [a, b, c, d] = m := by
  refine ⟨_, _, _, _, rfl, ?_⟩
  have := leValue_le 4 m
  rw [Nat.mod_eq_of_lt (by simpa using h)] at this
  exact this

/-- The specification's parser inverts the specification's encoder. -/
theorem next_encode (v11 : Bool) (c : DownCmd) (hc : Spec.WFCommand v11 c) (r : Bytes) :
    Spec.nextCommand v11 (Spec.encodeCommand c ++ r) = some (c, r) := by
  have h8 : ∀ n, n < 256 → (UInt8.ofNat n).toNat = n := by
    intro n hn; simp; omega
  cases c <;> simp only [Spec.WFCommand] at hc <;> simp only [Spec.encodeCommand, List.append_assoc,
    List.cons_append, List.nil_append]
  case linkCheck m g => simp [Spec.nextCommand]; omega
  case linkADR dr p mask ctl nb =>
    obtain ⟨a, b, e, hv⟩ := next_le2 hc.2.2.1 (UInt8.ofNat (16 * ctl + nb) :: r)
    rw [e]; simp [Spec.nextCommand, hv]; omega
  case dutyCycle d => simp [Spec.nextCommand]; omega
  case rxParamSetup o dr f =>
    obtain ⟨a, b, c, e, hv⟩ := next_le3 hc.2.2.2 r
    rw [e]; simp [Spec.nextCommand, hv]; omega
  case devStatus => rfl
  case newChannel i f hi lo =>
    obtain ⟨a, b, c, e, hv⟩ := next_le3 hc.2.2.1 (UInt8.ofNat (16 * hi + lo) :: r)
    rw [e]; simp [Spec.nextCommand, hv]; omega
  case rxTimingSetup d => simp [Spec.nextCommand]; omega
  case txParamSetup d => simp [Spec.nextCommand]; omega
  case dlChannel i f =>
    obtain ⟨a, b, c, e, hv⟩ := next_le3 hc.2.2 r
    rw [e]; simp [Spec.nextCommand, hv]; omega
  case rekey => simp [Spec.nextCommand, hc.1]; omega
  case adrParamSetup => simp [Spec.nextCommand, hc.1]; omega
  case deviceTime t f =>
    obtain ⟨a, b, c, d, e, hv⟩ := next_le4 hc.1 (UInt8.ofNat f :: r)
    rw [e]; simp [Spec.nextCommand, hv]; omega
  case forceRejoin p m t dr =>
    obtain ⟨a, b, e, hv⟩ := next_le2 (m := 2048 * p + 256 * m + 16 * t + dr) (by omega) r
    rw [e]; simp only [Spec.nextCommand, hv, hc.1]; simp; omega
  case rejoinParamSetup => simp [Spec.nextCommand, hc.1]; omega

theorem encode_length_pos (c : DownCmd) : 0 < (Spec.encodeCommand c).length := by
  cases c <;> simp [Spec.encodeCommand]

theorem parse_encode_list (v11 : Bool) (cmds : List DownCmd) (hc : ∀ c ∈ cmds, Spec.WFCommand v11 c)
    (rest : Bytes) (hr : Spec.nextCommand v11 rest = none) (n : Nat)
    (hn : (cmds.flatMap Spec.encodeCommand ++ rest).length ≤ n) :
    Spec.parseCommandsAux v11 n (cmds.flatMap Spec.encodeCommand ++ rest) = cmds := by
  induction cmds generalizing n with
  | nil => rcases n with _ | n <;> simp [Spec.parseCommandsAux, hr]
  | cons c cs ih =>
    simp only [List.flatMap_cons, List.append_assoc, List.length_append] at hn
    have := encode_length_pos c
    rcases n with _ | n
    · omega
    · simp only [List.flatMap_cons, List.append_assoc, Spec.parseCommandsAux,
        next_encode v11 c (hc c (by simp))]
      rw [ih (fun x hx => hc x (by simp [hx])) n (by simp only [List.length_append]; omega)]

/-- **C08**, round trip: the commands a server sent, followed by nothing or by something that is not a
complete known command, are read back as exactly that list. -/
theorem c08_round_trip_partial (v11 : Bool) (cmds : List DownCmd)
    (hc : ∀ c ∈ cmds, Spec.WFCommand v11 c ∧ isForceRejoin c = false) (rest : Bytes)
    (hr : Spec.nextCommand v11 rest = none)
    (hl : (cmds.flatMap Spec.encodeCommand ++ rest).length ≤ 255) :
    commands v11 (cmds.flatMap Spec.encodeCommand ++ rest) = cmds := by
  have h := c08_parser_is_spec_partial v11 _ hl
  rw [Spec.parseCommands, parse_encode_list v11 cmds (fun c h => (hc c h).1) rest hr _ (Nat.le_refl _)] at h
  exact eraseRejoin_inj h (fun c h => (hc c h).2)

/-- A list using every field width, followed by a truncated LinkADRReq. -/
example : (∀ c ∈ [DownCmd.linkADR 5 1 0xff07 6 3, .newChannel 4 867100000 5 0, .deviceTime 123456789 77],
    Spec.WFCommand true c ∧ isForceRejoin c = false) ∧ Spec.nextCommand true [3, 0, 0] = none := by
  refine ⟨?_, rfl⟩
  intro c hc
  simp only [List.mem_cons, List.not_mem_nil, or_false] at hc
  rcases hc with rfl | rfl | rfl <;> simp [Spec.WFCommand, isForceRejoin]

/-- Payload length of each command identifier (LoRaWAN 1.0.4 / 1.1, section 5). -/
def cidPayload (v11 : Bool) (cid : Nat) : Option Nat :=
  match cid with
  | 2 => some 2 | 3 => some 4 | 4 => some 1 | 5 => some 4 | 6 => some 0 | 7 => some 5 | 8 => some 1
  | 9 => some 1 | 10 => some 4 | 13 => some 5
  | 11 => if v11 then some 1 else none
  | 12 => if v11 then some 1 else none
  | 14 => if v11 then some 2 else none
  | 15 => if v11 then some 1 else none
  | _ => none

/-- **C08**: parsing stops exactly at the end, at an unknown tag, or at a truncated command. -/
theorem c08_stops_iff (v11 : Bool) (bs : Bytes) :
    Spec.nextCommand v11 bs = none ↔
      bs = [] ∨ ∃ cid r, bs = cid :: r ∧
        (cidPayload v11 cid.toNat = none ∨ ∃ n, cidPayload v11 cid.toNat = some n ∧ r.length < n) := by
  rcases bs with _ | ⟨cid, r⟩
  · simp [Spec.nextCommand]
  · simp only [reduceCtorEq, List.cons.injEq, false_or]
    constructor
    · intro h
      refine ⟨cid, r, ⟨rfl, rfl⟩, ?_⟩
      simp only [Spec.nextCommand] at h
      simp only [cidPayload]
      split <;> rename_i hk <;> (try simp only [hk] at h) <;>
        first
        | (right; refine ⟨_, rfl, ?_⟩; rcases r with _ | ⟨_, _ | ⟨_, _ | ⟨_, _ | ⟨_, _ | ⟨_, _⟩⟩⟩⟩⟩ <;> simp_all; done)
        | (left; rfl)
        | (cases v11
           · left; rfl
           · right; refine ⟨_, rfl, ?_⟩; rcases r with _ | ⟨_, _ | ⟨_, _⟩⟩ <;> simp_all)
    · rintro ⟨c, r', ⟨rfl, rfl⟩, h⟩
      simp only [Spec.nextCommand]
      simp only [cidPayload] at h
      split <;> simp_all <;> (try omega)
      exact h.elim id (fun h => absurd h.2 (by omega))

/-- **C08**: the loop always ends by itself: any number of further iterations allowed finds no more. -/
theorem c08_terminates (v11 : Bool) (bs : Bytes) (h : bs.length ≤ 255) (n : Nat)
    (hn : bs.length < n) :
    loop v11 n (Stream.initReadOnly bs bs.length) = commands v11 bs := by
  have key : ∀ (n m : Nat) (s : Stream) (xs : Bytes), At s xs → xs.length < n → xs.length < m →
      loop v11 n s = loop v11 m s := by
    intro n
    induction n with
    | zero => intro m s xs _ h1; omega
    | succ n ih =>
      intro m s xs h h1 h2
      rcases m with _ | m
      · omega
      have hs := step_all (v11 := v11) h
      simp only [Step] at hs
      rcases hg : getDownCommand v11 s with ⟨c, s'⟩
      simp only [hg] at hs
      rcases hp : Spec.nextCommand v11 xs with _ | ⟨c', r⟩
      · simp only [hp] at hs
        subst hs
        simp [loop, hg]
      · simp only [hp] at hs
        obtain ⟨c'', rfl, h2, h3, h4⟩ := hs
        simp only [loop, hg]
        rw [ih m s' r h3 (by omega) (by omega)]
  exact key _ _ _ _ (at_init bs h) hn (by omega)

theorem getDown_ran (v11 : Bool) {s : Stream} (h : Ran s) : Ran (getDownCommand v11 s).2 := by
  have h1 := (h.read 1).1
  rw [← getU8_stream] at h1
  simp only [getDownCommand]
  rcases hg : s.getU8 with ⟨tag, s'⟩
  rw [hg] at h1
  rcases tag with _ | tag
  · exact h1
  · dsimp only
    rcases tagToType v11 tag with _ | t
    · exact h1
    · exact (getFields_ran h1 t).1

/-- **C08**: however often the parser (or the look-ahead) is called, no byte outside the input is read.
`mem` may be larger than the announced length `n`. -/
theorem c08_in_bounds (v11 : Bool) (mem : Bytes) (n : Nat) (hm : n ≤ mem.length) (h8 : n ≤ 255)
    (k : Nat) :
    ((fun s => (getDownCommand v11 s).2)^[k] (Stream.initReadOnly mem n)).fault = false ∧
    ((fun s => (getDownCommand v11 s).2)^[k] (Stream.initReadOnly mem n)).peek.2.fault = false := by
  have hr : Ran ((fun s => (getDownCommand v11 s).2)^[k] (Stream.initReadOnly mem n)) := by
    induction k with
    | zero => exact ⟨by simp [initReadOnly], hm, h8, rfl⟩
    | succ k ih =>
      rw [Function.iterate_succ_apply']
      exact getDown_ran v11 ih
  refine ⟨hr.hf, ?_⟩
  generalize ((fun s => (getDownCommand v11 s).2)^[k] (Stream.initReadOnly mem n)) = s at hr
  simp only [peek]
  split
  · rename_i h
    rw [remaining_eq hr.hp hr.h8] at h
    have := hr.hm
    have h1 : ¬ s.mem.length < s.pos + 1 := by omega
    simp [hr.hf, h1]
  · exact hr.hf

end LDL
