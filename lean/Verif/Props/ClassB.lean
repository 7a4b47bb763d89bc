import Verif.Spec.ClassB
import Verif.Lemmas.MacCommands

/-!
# MAC commands of class B: C106
-/

namespace LDL
namespace ClassB
open Spec Stream

/-- The function of the code that serialises each command. -/
def putB (v11 : Bool) (s : Stream) : BUp → Stream
  | .pingSlotInfoReq p => putPingSlotInfoReq v11 s p
  | .pingSlotChannelAns d f => putPingSlotChannelAns v11 s d f
  | .beaconTimingReq => putBeaconTimingReq v11 s
  | .beaconFreqAns ok => putBeaconFreqAns v11 s ok

/-- The type under which the code announces the size of each command. -/
def upTypeB : BUp → BType
  | .pingSlotInfoReq _ => .pingSlotInfo
  | .pingSlotChannelAns .. => .pingSlotChannel
  | .beaconTimingReq => .beaconTiming
  | .beaconFreqAns _ => .beaconFreq

theorem putB_eq (v11 : Bool) (s : Stream) (c : BUp) : ∃ cs : List Bytes, putB v11 s c = s.writes cs ∧ cs.flatten = encodeB c := by
  cases c with
  | pingSlotInfoReq p =>
    refine ⟨[[16], [UInt8.ofNat (p % 8)]], ?_, rfl⟩
    simp only [putB, putPingSlotInfoReq, MacCmd.and_7]
    cases v11 <;> rfl
  | pingSlotChannelAns d f =>
    exact ⟨[[17], [UInt8.ofNat (2 * d.toNat + f.toNat)]], by cases v11 <;> cases d <;> cases f <;> rfl, rfl⟩
  | beaconTimingReq => exact ⟨[[18]], by cases v11 <;> rfl, rfl⟩
  | beaconFreqAns ok => exact ⟨[[19], [UInt8.ofNat ok.toNat]], by cases v11 <;> cases ok <;> rfl, rfl⟩

/-- **C106, uplink**: with room, each command writes exactly its bytes at the cursor and nothing else; without room the
stream reports an error. -/
theorem c106_up (v11 : Bool) (s : Stream) (c : BUp) (hw : s.writable = true) (he : s.error = false) (hp : s.pos ≤ s.size)
    (hm : s.size ≤ s.mem.length) (h8 : s.size ≤ 255) :
    (s.pos + (encodeB c).length ≤ s.size →
      putB v11 s c = { s with
        mem := s.mem.take s.pos ++ encodeB c ++ s.mem.drop (s.pos + (encodeB c).length)
        pos := s.pos + (encodeB c).length }) ∧
    (s.size < s.pos + (encodeB c).length → (putB v11 s c).error = true) := by
  obtain ⟨cs, e, f⟩ := putB_eq v11 s c
  rw [e, ← f]
  exact ⟨fun hs => writes_ok cs hw he hs hm h8, fun hs => writes_fail cs hw hs hp hm h8⟩

/-- **C106, size, partial**: the announced size is the number of bytes, but for PingSlotChannelAns (`c106_size`). -/
theorem c106_size_partial (c : BUp) (h : ∀ d f, c ≠ .pingSlotChannelAns d f) :
    sizeofCommandUp (.b (upTypeB c)) = (encodeB c).length := by
  cases c with
  | pingSlotChannelAns d f => exact absurd rfl (h d f)
  | _ => rfl

/-- The full property does not hold: PingSlotChannelAns is announced with the size of the request. -/
theorem c106_size (d f : Bool) : sizeofCommandUp (.b (upTypeB (.pingSlotChannelAns d f))) = 5 ∧
    (encodeB (.pingSlotChannelAns d f)).length = 2 := ⟨rfl, rfl⟩

theorem tag_b : ∀ v11 : Bool, tagToType v11 16 = some (.b .pingSlotInfo) ∧ tagToType v11 17 = some (.b .pingSlotChannel) ∧
    tagToType v11 18 = some (.b .beaconTiming) ∧ tagToType v11 19 = some (.b .beaconFreq) := by decide

theorem getDown_b {v11 : Bool} {s s' : Stream} {cid : UInt8} {bs r : Bytes} (h : At s (cid :: bs)) {t : BType}
    (ht : tagToType v11 cid.toNat = some (.b t)) {c : BDown} (hf : getFields { s with pos := s.pos + 1 } t = (c, s'))
    (hs : At s' r) : (getDownCommand v11 s).1 = some (.b c) ∧ At (getDownCommand v11 s).2 r := by
  unfold getDownCommand
  rw [h.getU8.1]
  dsimp only
  rw [ht]
  dsimp only
  rw [hf]
  have : s'.hasError = false := hs.he
  dsimp only
  rw [if_neg (by rw [this]; decide)]
  exact ⟨rfl, hs⟩

theorem le3 (v : Nat) : ∃ a b c, le 3 v = [a, b, c] ∧ leValue [a, b, c] = v % 2 ^ 24 :=
  ⟨_, _, _, rfl, leValue_le 3 v⟩

theorem le2 (v : Nat) : ∃ a b, le 2 v = [a, b] ∧ leValue [a, b] = v % 2 ^ 16 :=
  ⟨_, _, rfl, leValue_le 2 v⟩

theorem down_b {v11 : Bool} {s : Stream} {rfu : Nat} {c : BDown} {r : Bytes} (hfit : FitsB c) (h : At s (ofB rfu c ++ r)) :
    (getDownCommand v11 s).1 = some (.b c) ∧ At (getDownCommand v11 s).2 r := by
  obtain ⟨t1, t2, t3, t4⟩ := tag_b v11
  cases c with
  | pingSlotInfo => exact getDown_b (cid := 0x10) h t1 rfl h.getU8.2
  | pingSlotChannel f dr =>
    obtain ⟨hf, hf', hdr⟩ := hfit
    obtain ⟨a, b, c, he, hv⟩ := le3 (f / 100)
    simp only [ofB, he] at h
    have a0 := At.getU24 (s := { s with pos := s.pos + 1 }) h.getU8.2
    have a1 := At.getU8 (s := { s with pos := s.pos + 1 + 3 }) a0.2
    refine getDown_b h t2 ?_ a1.2
    simp only [getFields, a0.1, a1.1, Option.getD_some, MacCmd.freq_u32, MacCmd.and_f]
    rw [hv, Nat.mod_eq_of_lt hf']
    congr 2
    · omega
    · show (16 * rfu + dr) % 256 % 16 = dr
      omega
  | beaconTiming d c =>
    obtain ⟨hd, hc⟩ := hfit
    obtain ⟨a, b, he, hv⟩ := le2 d
    simp only [ofB, he] at h
    have a0 := At.getU16 (s := { s with pos := s.pos + 1 }) h.getU8.2
    have a1 := At.getU8 (s := { s with pos := s.pos + 1 + 2 }) a0.2
    refine getDown_b h t3 ?_ a1.2
    simp only [getFields, a0.1, a1.1, Option.getD_some]
    rw [hv, Nat.mod_eq_of_lt hd]
    congr 2
    show c % 256 = c
    omega
  | beaconFreq f =>
    obtain ⟨hf, hf'⟩ := hfit
    obtain ⟨a, b, c, he, hv⟩ := le3 (f / 100)
    simp only [ofB, he] at h
    have a0 := At.getU24 (s := { s with pos := s.pos + 1 }) h.getU8.2
    refine getDown_b h t4 ?_ a0.2
    simp only [getFields, a0.1, Option.getD_some, MacCmd.freq_u32]
    rw [hv, Nat.mod_eq_of_lt hf']
    congr 2
    omega

/-- Payload length of each downlink command as read by the model. -/
def bLen : BType → Nat
  | .pingSlotInfo => 0 | .pingSlotChannel => 4 | .beaconTiming => 3 | .beaconFreq => 3

theorem getFields_short {s : Stream} {xs : Bytes} (h : At s xs) {t : BType} (hl : xs.length < bLen t) :
    (getFields s t).2.error = true := by
  have chain : ∀ {r : Stream} {a : Nat}, (Ran r ∧ (r.error = false → r.pos = s.pos + a ∧ r.size = s.size)) → ∀ b,
      (Ran (r.read b).2 ∧ ((r.read b).2.error = false → (r.read b).2.pos = s.pos + (a + b) ∧ (r.read b).2.size = s.size)) := by
    intro r a ⟨h1, h3⟩ b
    obtain ⟨g1, g2, g3⟩ := h1.read b
    refine ⟨g1, fun he => ?_⟩
    have : r.error = false := by
      cases hr : r.error
      · rfl
      · rw [g2 hr] at he; exact he
    obtain ⟨a1, a2⟩ := h3 this
    obtain ⟨b1, b2⟩ := g3 he
    exact ⟨by omega, by omega⟩
  have zero : Ran s ∧ (s.error = false → s.pos = s.pos + 0 ∧ s.size = s.size) := ⟨h.ran, fun _ => ⟨rfl, rfl⟩⟩
  have key : Ran (getFields s t).2 ∧ ((getFields s t).2.error = false →
      (getFields s t).2.pos = s.pos + bLen t ∧ (getFields s t).2.size = s.size) := by
    cases t <;> simp only [getFields, getU8_stream, getU16_stream, getU24_stream, bLen]
    · simpa using zero
    · exact chain (chain zero 3) 1
    · exact chain (chain zero 2) 1
    · exact chain zero 3
  cases he : (getFields s t).2.error
  · obtain ⟨a, b⟩ := key.2 he
    have := h.length
    have := key.1.hp
    omega
  · rfl

theorem getDown_end {v11 : Bool} {s : Stream} (h : At s []) : (getDownCommand v11 s).1 = none := by
  have hr : s.getU8 = (none, { s with error := true }) := by
    have hz := h.length
    have := h.hp
    simp at hz
    unfold Stream.getU8
    rw [read_fail h.he (by omega)]
  simp [getDownCommand, hr]

theorem getDown_short {v11 : Bool} {s : Stream} {cid : UInt8} {bs : Bytes} (h : At s (cid :: bs)) {t : BType}
    (ht : tagToType v11 cid.toNat = some (.b t)) (hl : bs.length < bLen t) : (getDownCommand v11 s).1 = none := by
  have he := getFields_short h.getU8.2 hl
  unfold getDownCommand
  rw [h.getU8.1]
  dsimp only
  rw [ht]
  dsimp only
  rw [if_pos (show (getFields _ t).2.hasError = true from he)]

/-- The beginning of a command. -/
theorem down_cut {v11 : Bool} {s : Stream} {rfu n : Nat} {c : BDown} (hn : n < (ofB rfu c).length)
    (h : At s ((ofB rfu c).take n)) : (getDownCommand v11 s).1 = none := by
  obtain ⟨t1, t2, t3, t4⟩ := tag_b v11
  cases n with
  | zero => rw [List.take_zero] at h; exact getDown_end h
  | succ n =>
    cases c with
    | pingSlotInfo => simp [ofB] at hn
    | pingSlotChannel f dr =>
      simp only [ofB, List.take_succ_cons] at h
      refine getDown_short h t2 ?_
      simp [ofB, le] at hn
      simp [bLen, le]; omega
    | beaconTiming d c =>
      simp only [ofB, List.take_succ_cons] at h
      refine getDown_short h t3 ?_
      simp [ofB, le] at hn
      simp [bLen, le]; omega
    | beaconFreq f =>
      simp only [ofB, List.take_succ_cons] at h
      refine getDown_short h t4 ?_
      simp [ofB, le] at hn
      simp [bLen, le]; omega

theorem loop_b {v11 : Bool} (tail : Bytes) (htail : ∀ s, At s tail → (getDownCommand v11 s).1 = none)
    (cs : List (Nat × BDown)) (hfit : ∀ x ∈ cs, FitsB x.2) : ∀ (fuel : Nat) (s : Stream),
    cs.length < fuel → At s ((cs.flatMap fun x => ofB x.1 x.2) ++ tail) → loop v11 fuel s = cs.map fun x => .b x.2 := by
  induction cs with
  | nil =>
    intro fuel s hl h
    obtain ⟨fuel, rfl⟩ : ∃ k, fuel = k + 1 := ⟨fuel - 1, by simp at hl; omega⟩
    have h1 := htail s h
    unfold loop
    generalize getDownCommand v11 s = p at h1
    obtain ⟨c, s'⟩ := p
    cases h1
    rfl
  | cons x cs ih =>
    intro fuel s hl h
    obtain ⟨fuel, rfl⟩ : ∃ k, fuel = k + 1 := ⟨fuel - 1, by simp at hl; omega⟩
    rw [List.flatMap_cons, List.append_assoc] at h
    obtain ⟨h1, h2⟩ := down_b (v11 := v11) (hfit x (by simp)) h
    rw [List.map_cons, ← ih (fun y hy => hfit y (by simp [hy])) fuel _ (by simp at hl; omega) h2]
    conv => lhs; unfold loop
    generalize getDownCommand v11 s = p at h1
    obtain ⟨c, s'⟩ := p
    cases h1
    rfl

theorem count_le : ∀ cs : List (Nat × BDown), cs.length ≤ (cs.flatMap fun x => ofB x.1 x.2).length := by
  intro cs
  induction cs with
  | nil => simp
  | cons x cs ih =>
    have h1 : 1 ≤ (ofB x.1 x.2).length := by cases x.2 <;> simp [ofB]
    rw [List.flatMap_cons, List.length_append, List.length_cons]
    omega

/-- **C106, downlink**: any sequence of class B commands is read as it was written, whatever is in the free bits. -/
theorem c106_down (v11 : Bool) (cs : List (Nat × BDown)) (hfit : ∀ x ∈ cs, FitsB x.2)
    (hl : (cs.flatMap fun x => ofB x.1 x.2).length ≤ 255) :
    commands v11 (cs.flatMap fun x => ofB x.1 x.2) = cs.map fun x => .b x.2 := by
  refine loop_b [] (fun s h => getDown_end h) cs hfit _ _ (Nat.lt_succ_of_le (count_le cs)) ?_
  rw [List.append_nil]
  exact at_init _ hl

/-- **C106, truncated**: if the last command is cut short it is not read, and those before it are. -/
theorem c106_truncated (v11 : Bool) (cs : List (Nat × BDown)) (hfit : ∀ x ∈ cs, FitsB x.2) (rfu : Nat) (c : BDown) (n : Nat)
    (hn : n < (ofB rfu c).length) (opts : Bytes) (ho : opts = (cs.flatMap fun x => ofB x.1 x.2) ++ (ofB rfu c).take n)
    (hl : opts.length ≤ 255) : commands v11 opts = cs.map fun x => .b x.2 := by
  refine loop_b _ (fun s h => down_cut hn h) cs hfit _ _ ?_ (ho ▸ at_init _ hl)
  have := count_le cs
  rw [ho, List.length_append]
  omega

theorem tag_a {v11 : Bool} {tag : Nat} {t : CmdType} (h : MacCmd.tagToType v11 tag = some t) :
    tagToType v11 tag = some (.a t) := by
  unfold tagToType tags
  unfold MacCmd.tagToType at h
  rw [List.find?_append, List.find?_map]
  cases hx : (MacCmd.tags v11).find? (fun p => p.1 == tag) with
  | none => rw [hx] at h; cases h
  | some p =>
    rw [hx] at h
    have : (MacCmd.tags v11).find? ((fun p : Nat × AnyType => p.1 == tag) ∘ fun p => (p.1, AnyType.a p.2)) = some p := hx
    rw [this]
    cases h
    rfl

theorem getDown_a {v11 : Bool} {s s' : Stream} {c : DownCmd} (h : MacCmd.getDownCommand v11 s = (some c, s')) :
    getDownCommand v11 s = (some (.a c), s') := by
  unfold MacCmd.getDownCommand at h
  unfold getDownCommand
  generalize s.getU8 = g at *
  obtain ⟨tag, s1⟩ := g
  cases tag with
  | none => cases h
  | some tag =>
    dsimp only at h ⊢
    cases ht : MacCmd.tagToType v11 tag with
    | none => rw [ht] at h; cases h
    | some t =>
      rw [ht] at h
      rw [tag_a ht]
      dsimp only at h ⊢
      generalize MacCmd.getFields s1 t = q at *
      obtain ⟨c', s2⟩ := q
      dsimp only at h ⊢
      split at h
      · cases h
      · rename_i he
        rw [if_neg he]
        cases h
        rfl

theorem tag_none {v11 : Bool} {tag : Nat} (h : MacCmd.tagToType v11 tag = none) (t : CmdType) :
    tagToType v11 tag ≠ some (.a t) := by
  unfold tagToType tags
  unfold MacCmd.tagToType at h
  rw [List.find?_append, List.find?_map]
  have hx : (MacCmd.tags v11).find? ((fun p : Nat × AnyType => p.1 == tag) ∘ fun p => (p.1, AnyType.a p.2)) = none := by
    cases hy : (MacCmd.tags v11).find? (fun p => p.1 == tag) with
    | none => exact hy
    | some p => rw [hy] at h; cases h
  rw [hx]
  intro hc
  simp only [Option.map_none, Option.none_or, Option.map_eq_some_iff] at hc
  obtain ⟨q, hq, hq2⟩ := hc
  have := List.mem_of_find?_eq_some hq
  simp only [List.mem_cons, List.not_mem_nil, or_false] at this
  rcases this with rfl | rfl | rfl | rfl <;> cases hq2

theorem getDown_none {v11 : Bool} {s s' : Stream} (h : MacCmd.getDownCommand v11 s = (none, s')) (c : DownCmd) :
    (getDownCommand v11 s).1 ≠ some (.a c) := by
  unfold MacCmd.getDownCommand at h
  unfold getDownCommand
  generalize s.getU8 = g at *
  obtain ⟨tag, s1⟩ := g
  cases tag with
  | none => simp
  | some tag =>
    dsimp only at h ⊢
    cases ht : MacCmd.tagToType v11 tag with
    | none =>
      have hn := tag_none ht
      generalize tagToType v11 tag = u at hn
      match u, hn with
      | none, _ => simp
      | some (.a t), hn => exact absurd rfl (hn t)
      | some (.b t), _ =>
        dsimp only
        split <;> simp
    | some t =>
      rw [ht] at h
      rw [tag_a ht]
      dsimp only at h ⊢
      generalize MacCmd.getFields s1 t = q at *
      obtain ⟨c', s2⟩ := q
      dsimp only at h ⊢
      split at h
      · rename_i he
        rw [if_pos he]
        simp
      · cases h

/-- **C106, other commands**: what a device with class B reads in a buffer, up to the first command of class B, is what a
device without class B reads. -/
theorem c106_class_a (v11 : Bool) (opts : Bytes) :
    (commands v11 opts).takeWhile AnyDown.isA = (MacCmd.commands v11 opts).map AnyDown.a := by
  unfold MacCmd.commands commands
  generalize opts.length + 1 = fuel
  generalize initReadOnly opts opts.length = s
  induction fuel generalizing s with
  | zero => rfl
  | succ fuel ih =>
    unfold MacCmd.loop loop
    cases hg : MacCmd.getDownCommand v11 s with
    | mk c s' =>
      cases c with
      | none =>
        have hn := getDown_none hg
        generalize getDownCommand v11 s = p at hn
        match p, hn with
        | (none, _), _ => rfl
        | (some (.a c), _), hn => exact absurd rfl (hn c)
        | (some (.b _), _), _ => rfl
      | some c =>
        rw [getDown_a hg]
        show (AnyDown.a c :: loop v11 fuel s').takeWhile AnyDown.isA = _
        rw [List.takeWhile_cons, if_pos (show (AnyDown.a c).isA = true from rfl), ih s']
        rfl

/-! ## Concrete cases -/

/-- Three commands, the first with free bits set. -/
example : commands false [0x11, 0x18, 0x4f, 0x84, 0xf3, 0x12, 0x34, 0x12, 0x07, 0x13, 0xd2, 0xad, 0x84] =
    [.b (.pingSlotChannel 867100000 3), .b (.beaconTiming 0x1234 7), .b (.beaconFreq 869525000)] := by
  have h := c106_down false [(15, .pingSlotChannel 867100000 3), (0, .beaconTiming 0x1234 7), (0, .beaconFreq 869525000)]
    (by
      intro x hx
      simp only [List.mem_cons, List.not_mem_nil, or_false] at hx
      rcases hx with rfl | rfl | rfl
      · exact ⟨by decide, by decide, by decide⟩
      · exact ⟨by decide, by decide⟩
      · exact ⟨by decide, by decide⟩) (by decide)
  exact h

/-- The last command is cut short. -/
example : commands true [0x10, 0x12, 0x34, 0x12] = [.b .pingSlotInfo] :=
  c106_truncated true [(0, .pingSlotInfo)] (by simp [FitsB]) 0 (.beaconTiming 0x1234 7) 3 (by decide) _ rfl (by decide)

/-- A device without class B stops at the first command of class B. -/
example : MacCmd.commands false [0x06, 0x12, 0x34, 0x12, 0x07, 0x06] = [.devStatus] ∧
    commands false [0x06, 0x12, 0x34, 0x12, 0x07, 0x06] = [.a .devStatus, .b (.beaconTiming 0x1234 7), .a .devStatus] := by
  decide

example : (putB true ((Stream.init [7, 1, 0, 0, 0] 5).seekSet 2).2 (.pingSlotInfoReq 13)).mem = [7, 1, 0x10, 5, 0] := by decide

end ClassB
end LDL
