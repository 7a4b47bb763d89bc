import Verif.Model.Data
import Verif.Spec.Channel

/-!
# Channel selection against the specification of channels
-/

namespace LDL

theorem and_bit_pos (x k : Nat) : x &&& (1 <<< k) > 0 ↔ x.testBit k = true := by
  have hb : ∀ i, (x &&& (1 <<< k)).testBit i = (x.testBit i && decide (k = i)) := by
    intro i
    rw [Nat.testBit_and, Nat.one_shiftLeft, Nat.testBit_two_pow]
  constructor
  · intro h
    apply Decidable.byContradiction
    intro hc
    have h0 : x &&& (1 <<< k) = 0 := by
      apply Nat.eq_of_testBit_eq
      intro i
      rw [hb, Nat.zero_testBit]
      by_cases hk : k = i
      · subst hk; simp only [Bool.not_eq_true] at hc; simp [hc]
      · simp [hk]
    omega
  · intro h
    have h1 := hb k
    rw [h] at h1
    simp only [decide_true, Bool.and_self] at h1
    apply Decidable.byContradiction
    intro hc
    have h0 : x &&& (1 <<< k) = 0 := by omega
    rw [h0, Nat.zero_testBit] at h1
    simp at h1

theorem channelIsMasked_iff (s : Session) (ch : Nat) (h : ch < s.region.numChannels) :
    channelIsMasked s.chMask s.region ch = true ↔ Spec.Masked s ch := by
  unfold channelIsMasked Spec.Masked
  have h72 : ch < 72 := by
    revert h; cases s.region <;> simp [Region.numChannels] <;> omega
  rw [if_pos ⟨h, h72⟩, decide_eq_true_eq, and_bit_pos]

theorem getBand_spec (r : Region) (f : Nat) : r.getBand f = Spec.band r f := by
  cases r
  case eu868 =>
    simp only [Region.getBand, Spec.band]
    by_cases h : 863000000 ≤ f ∧ f ≤ 868000000
    · rw [if_pos h, if_pos h]
    · rw [if_neg h, if_neg h]
      by_cases h2 : 868000000 ≤ f ∧ f ≤ 868600000
      · rw [if_pos h2, if_pos (by omega)]
      · rw [if_neg h2, if_neg (show ¬ (868000000 < f ∧ f ≤ 868600000) by omega)]
  all_goals rfl

theorem getChannel_dyn (w : Nat) (hw : w < 4294967296) (p : Prop) [Decidable p] (f lo hi : Nat) :
    (∃ c : Region.Chan, (if p then some (⟨u32 ((w >>> 8) * 100), (w >>> 4) &&& 0xf, w &&& 0xf⟩ : Region.Chan) else none) = some c ∧
      c.freq > 0 ∧ c.freq = f ∧ c.minRate = lo ∧ c.maxRate = hi) ↔
    (if p ∧ 256 ≤ w then some (w / 256 * 100, w / 16 % 16, w % 16) else none) = some (f, lo, hi) := by
  have h15 : ∀ x : Nat, x &&& 0xf = x % 16 := fun x => Nat.and_two_pow_sub_one_eq_mod x 4
  have h1 : u32 ((w >>> 8) * 100) = w / 256 * 100 := by
    rw [Nat.shiftRight_eq_div_pow]; unfold u32; omega
  have h2 : (w >>> 4) &&& 0xf = w / 16 % 16 := by rw [Nat.shiftRight_eq_div_pow, h15]
  rw [h1, h2, h15]
  by_cases hp : p
  · simp only [hp, true_and, if_true]
    by_cases h256 : 256 ≤ w
    · rw [if_pos h256]
      constructor
      · rintro ⟨c, h, _, rfl, rfl, rfl⟩
        simp only [Option.some.injEq] at h; rw [← h]
      · intro h
        simp only [Option.some.injEq, Prod.mk.injEq] at h
        obtain ⟨rfl, rfl, rfl⟩ := h
        exact ⟨_, rfl, by show w / 256 * 100 > 0; omega, rfl, rfl, rfl⟩
    · rw [if_neg h256]
      constructor
      · rintro ⟨c, h, hf, _⟩
        simp only [Option.some.injEq] at h
        rw [← h] at hf
        have hf : w / 256 * 100 > 0 := hf
        omega
      · intro h; simp at h
  · simp [hp]

theorem getChannel_spec (s : Session) (ch : Nat) (hc : s.chConfig ch < 4294967296) (f lo hi : Nat) :
    (∃ c, getChannel s ch = some c ∧ c.freq > 0 ∧ c.freq = f ∧ c.minRate = lo ∧ c.maxRate = hi) ↔
    Spec.chan s ch = some (f, lo, hi) := by
  unfold getChannel Spec.chan
  cases hr : s.region
  case eu868 =>
    simp only [Region.isDynamic, if_true]
    have := getChannel_dyn (s.chConfig ch) hc (ch < 16) f lo hi
    have he : (ch < Region.numChannels .eu868 ∧ ch < 16) ↔ ch < 16 := by simp [Region.numChannels]
    simp only [he]
    exact this
  case eu433 =>
    simp only [Region.isDynamic, if_true]
    have := getChannel_dyn (s.chConfig ch) hc (ch < 16) f lo hi
    have he : (ch < Region.numChannels .eu433 ∧ ch < 16) ↔ ch < 16 := by simp [Region.numChannels]
    simp only [he]
    exact this
  case us915 =>
    simp only [Region.isDynamic, Region.getChannel, Spec.fixedFreq, Bool.false_eq_true, if_false]
    by_cases h64 : ch < 64
    · simp only [if_pos h64]
      constructor
      · rintro ⟨c, h, _, rfl, rfl, rfl⟩
        simp only [Option.some.injEq] at h; rw [← h]
      · intro h
        simp only [Option.some.injEq, Prod.mk.injEq] at h
        obtain ⟨rfl, rfl, rfl⟩ := h
        exact ⟨_, rfl, by simp only []; omega, rfl, rfl, rfl⟩
    · simp only [if_neg h64]
      by_cases h72 : ch < 72
      · simp only [if_pos h72]
        constructor
        · rintro ⟨c, h, _, rfl, rfl, rfl⟩
          simp only [Option.some.injEq] at h; rw [← h]
        · intro h
          simp only [Option.some.injEq, Prod.mk.injEq] at h
          obtain ⟨rfl, rfl, rfl⟩ := h
          exact ⟨_, rfl, by simp only []; omega, rfl, rfl, rfl⟩
      · simp [if_neg h72]
  case au915 =>
    simp only [Region.isDynamic, Region.getChannel, Spec.fixedFreq, Bool.false_eq_true, if_false]
    by_cases h64 : ch < 64
    · simp only [if_pos h64]
      constructor
      · rintro ⟨c, h, _, rfl, rfl, rfl⟩
        simp only [Option.some.injEq] at h; rw [← h]
      · intro h
        simp only [Option.some.injEq, Prod.mk.injEq] at h
        obtain ⟨rfl, rfl, rfl⟩ := h
        exact ⟨_, rfl, by simp only []; omega, rfl, rfl, rfl⟩
    · simp only [if_neg h64]
      by_cases h72 : ch < 72
      · simp only [if_pos h72]
        constructor
        · rintro ⟨c, h, _, rfl, rfl, rfl⟩
          simp only [Option.some.injEq] at h; rw [← h]
        · intro h
          simp only [Option.some.injEq, Prod.mk.injEq] at h
          obtain ⟨rfl, rfl, rfl⟩ := h
          exact ⟨_, rfl, by simp only []; omega, rfl, rfl, rfl⟩
      · simp [if_neg h72]

/-- Defined channels have an index below the number of channels. -/
theorem chan_lt (s : Session) (ch : Nat) (x : Nat × Nat × Nat) (h : Spec.chan s ch = some x) :
    ch < s.region.numChannels := by
  unfold Spec.chan at h
  cases hr : s.region <;> rw [hr] at h <;> simp only [Region.numChannels] <;> simp only [] at h <;> grind

/-- Stored channel words are 32 bit values. -/
def ChanWords (s : Session) : Prop := ∀ i, s.chConfig i < 4294967296

theorem usableBand_spec (s : Session) (ch : Nat) (hw : ChanWords s) (hch : ch < s.region.numChannels) (b : Nat) :
    usableBand s ch = some b ↔
      ¬ Spec.Masked s ch ∧ ∃ f lo hi, Spec.chan s ch = some (f, lo, hi) ∧ Spec.band s.region f = some b := by
  unfold usableBand
  by_cases hm : channelIsMasked s.chMask s.region ch = true
  · rw [if_pos hm]
    have := (channelIsMasked_iff s ch hch).1 hm
    simp [this]
  · rw [if_neg hm]
    have hm' : ¬ Spec.Masked s ch := fun h => hm ((channelIsMasked_iff s ch hch).2 h)
    constructor
    · intro h
      refine ⟨hm', ?_⟩
      split at h
      · next c hc =>
        split at h
        · next hf =>
          exact ⟨c.freq, c.minRate, c.maxRate, (getChannel_spec s ch (hw ch) _ _ _).1 ⟨c, hc, hf, rfl, rfl, rfl⟩,
            by rw [← getBand_spec]; exact h⟩
        · simp at h
      · simp at h
    · rintro ⟨_, f, lo, hi, hc, hb⟩
      obtain ⟨c, h1, h2, h3, _, _⟩ := (getChannel_spec s ch (hw ch) f lo hi).2 hc
      rw [h1]
      simp only []
      rw [if_pos h2, h3, getBand_spec]; exact hb

theorem isAvailable_iff (m : Mac) (hw : ChanWords m.ctx) (ch limit : Nat) (hch : ch < m.ctx.region.numChannels) :
    isAvailable m ch limit = true ↔ Spec.Open m limit ch := by
  unfold isAvailable Spec.Open
  constructor
  · intro h
    split at h
    · next b hb =>
      obtain ⟨h1, f, lo, hi, h2, h3⟩ := (usableBand_spec m.ctx ch hw hch b).1 hb
      exact ⟨h1, f, lo, hi, b, h2, h3, by simpa using h⟩
    · simp at h
  · rintro ⟨h1, f, lo, hi, b, h2, h3, h4⟩
    rw [(usableBand_spec m.ctx ch hw hch b).2 ⟨h1, f, lo, hi, h2, h3⟩]
    simpa using h4

theorem mem_available (m : Mac) (hw : ChanWords m.ctx) (ch limit : Nat) :
    ch ∈ availableChannels m limit ↔ Spec.Open m limit ch := by
  unfold availableChannels
  rw [List.mem_filter, List.mem_range]
  constructor
  · rintro ⟨h1, h2⟩
    exact (isAvailable_iff m hw ch limit h1).1 h2
  · intro h
    obtain ⟨f, lo, hi, b, hc, _⟩ := h.2
    have hch := chan_lt _ _ _ hc
    exact ⟨hch, (isAvailable_iff m hw ch limit hch).2 h⟩

theorem available_nodup (m : Mac) (limit : Nat) : (availableChannels m limit).Nodup :=
  List.Nodup.sublist List.filter_sublist List.nodup_range

/-- The channels from which `selectChannel` draws. -/
def candidates (m : Mac) (limit : Nat) : List Nat :=
  if m.tx.chIndex ∈ availableChannels m limit ∧ (availableChannels m limit).length ≠ 1 then
    (availableChannels m limit).filter fun i => i != m.tx.chIndex
  else availableChannels m limit

theorem filter_ne_length {l : List Nat} (hn : l.Nodup) {x : Nat} (hx : x ∈ l) :
    (l.filter fun i => i != x).length = l.length - 1 := by
  rw [← hn.erase_eq_filter, List.length_erase_of_mem hx]

theorem candidates_ne_nil (m : Mac) (limit : Nat) (h : availableChannels m limit ≠ []) : candidates m limit ≠ [] := by
  unfold candidates
  split
  · next hc =>
    intro hnil
    have h1 := filter_ne_length (available_nodup m limit) hc.1
    rw [hnil] at h1
    have : (availableChannels m limit).length ≠ 0 := fun h0 => h (List.length_eq_zero_iff.1 h0)
    simp only [List.length_nil] at h1
    omega
  · exact h

theorem available_length_le (m : Mac) (limit : Nat) : (availableChannels m limit).length ≤ 72 := by
  have h1 : (availableChannels m limit).length ≤ m.ctx.region.numChannels := by
    unfold availableChannels
    exact Nat.le_trans (List.length_filter_le _ _) (by rw [List.length_range]; exact Nat.le_refl _)
  have : m.ctx.region.numChannels ≤ 72 := by cases m.ctx.region <;> simp [Region.numChannels]
  omega

/-- What `selectChannel` does: nothing if there is no channel, else a candidate picked by the random number. -/
theorem selectChannel_eq (m : Mac) (draw desired limit : Nat) :
    selectChannel m draw desired limit =
      if availableChannels m limit = [] then none
      else match (candidates m limit)[draw % (candidates m limit).length]? with
        | some i =>
          match getChannel m.ctx i with
          | some c => some (c.freq, i, requiredRate desired c.minRate c.maxRate)
          | none => none
        | none => none := by
  unfold selectChannel
  simp only []
  by_cases h0 : availableChannels m limit = []
  · rw [if_pos h0, if_neg (by rw [h0]; simp)]
  · have hl : (availableChannels m limit).length > 0 := List.length_pos_iff.2 h0
    rw [if_neg h0, if_pos hl]
    have h72 := available_length_le m limit
    by_cases hc : m.tx.chIndex ∈ availableChannels m limit ∧ (availableChannels m limit).length ≠ 1
    · have hs : (decide (m.tx.chIndex ∈ availableChannels m limit) && decide ((availableChannels m limit).length ≠ 1)) = true := by
        simp [hc.1, hc.2]
      have hcl : (candidates m limit).length = (availableChannels m limit).length - 1 := by
        unfold candidates
        rw [if_pos hc, filter_ne_length (available_nodup m limit) hc.1]
      have hu : u8 (draw % ((availableChannels m limit).length - 1)) = draw % ((availableChannels m limit).length - 1) := by
        have : draw % ((availableChannels m limit).length - 1) < (availableChannels m limit).length - 1 :=
          Nat.mod_lt _ (by omega)
        unfold u8; omega
      have hcand : candidates m limit = (availableChannels m limit).filter fun i => i != m.tx.chIndex := by
        unfold candidates; rw [if_pos hc]
      simp only [if_pos hs]
      rw [hu, hcl, hcand]
      rfl
    · have hs : (decide (m.tx.chIndex ∈ availableChannels m limit) && decide ((availableChannels m limit).length ≠ 1)) ≠ true := by
        intro h
        simp only [Bool.and_eq_true, decide_eq_true_eq] at h
        exact hc h
      have hu : u8 (draw % (availableChannels m limit).length) = draw % (availableChannels m limit).length := by
        have : draw % (availableChannels m limit).length < (availableChannels m limit).length :=
          Nat.mod_lt _ hl
        unfold u8; omega
      have hcand : candidates m limit = availableChannels m limit := by
        unfold candidates; rw [if_neg hc]
      simp only [if_neg hs]
      rw [hu, hcand]
      rfl

theorem candidates_subset (m : Mac) (limit i : Nat) (h : i ∈ candidates m limit) : i ∈ availableChannels m limit := by
  unfold candidates at h
  split at h
  · exact (List.mem_filter.1 h).1
  · exact h

/-- A selected channel is open, and the frequency and rate are its own. -/
theorem selectChannel_some (m : Mac) (hw : ChanWords m.ctx) (draw desired limit f ch r : Nat)
    (h : selectChannel m draw desired limit = some (f, ch, r)) :
    ch ∈ candidates m limit ∧ Spec.Open m limit ch ∧
    ∃ lo hi, Spec.chan m.ctx ch = some (f, lo, hi) ∧ r = requiredRate desired lo hi := by
  rw [selectChannel_eq] at h
  split at h
  · simp at h
  · split at h
    · next i hi =>
      have hmem := List.mem_of_getElem? hi
      have ho := (mem_available m hw i limit).1 (candidates_subset m limit i hmem)
      split at h
      · next c hc =>
        simp only [Option.some.injEq, Prod.mk.injEq] at h
        obtain ⟨rfl, rfl, rfl⟩ := h
        obtain ⟨f', lo, hi', b, h1, _⟩ := ho.2
        obtain ⟨c', e1, _, e3, e4, e5⟩ := (getChannel_spec m.ctx i (hw i) _ _ _).2 h1
        rw [hc] at e1
        simp only [Option.some.injEq] at e1
        subst e1 e3 e4 e5
        exact ⟨hmem, ho, _, _, h1, rfl⟩
      · simp at h
    · simp at h

/-- Selection by number: candidate `draw % n`. -/
theorem selectChannel_of_candidate (m : Mac) (hw : ChanWords m.ctx) (desired limit ch : Nat)
    (h : ch ∈ candidates m limit) :
    ∃ draw < 72, ∃ f r, selectChannel m draw desired limit = some (f, ch, r) := by
  obtain ⟨k, hk, he⟩ := List.mem_iff_getElem.1 h
  have hav := candidates_subset m limit ch h
  have hlen : (candidates m limit).length ≤ 72 := by
    have h72 := available_length_le m limit
    unfold candidates
    split
    · exact Nat.le_trans (List.length_filter_le _ _) h72
    · exact h72
  refine ⟨k, by omega, ?_⟩
  rw [selectChannel_eq, if_neg (List.ne_nil_of_mem hav), Nat.mod_eq_of_lt hk, List.getElem?_eq_getElem hk, he]
  simp only []
  obtain ⟨f', lo, hi', b, h1, _⟩ := ((mem_available m hw ch limit).1 hav).2
  obtain ⟨c', e1, _⟩ := (getChannel_spec m.ctx ch (hw ch) _ _ _).2 h1
  rw [e1]
  exact ⟨_, _, rfl⟩

theorem selectChannel_isSome (m : Mac) (hw : ChanWords m.ctx) (draw desired limit : Nat) :
    (selectChannel m draw desired limit).isSome = true ↔ ∃ ch, Spec.Open m limit ch := by
  constructor
  · intro h
    rcases hs : selectChannel m draw desired limit with _ | ⟨f, ch, r⟩
    · rw [hs] at h; simp at h
    · exact ⟨ch, (selectChannel_some m hw _ _ _ _ _ _ hs).2.1⟩
  · rintro ⟨ch, h⟩
    have hne : availableChannels m limit ≠ [] := List.ne_nil_of_mem ((mem_available m hw ch limit).2 h)
    rw [selectChannel_eq, if_neg hne]
    have hlt : draw % (candidates m limit).length < (candidates m limit).length :=
      Nat.mod_lt _ (List.length_pos_iff.2 (candidates_ne_nil m limit hne))
    rw [List.getElem?_eq_getElem hlt]
    simp only []
    have hmem := candidates_subset m limit _ (List.getElem_mem hlt)
    obtain ⟨f', lo, hi', b, h1, _⟩ := ((mem_available m hw _ limit).1 hmem).2
    obtain ⟨c', e1, _⟩ := (getChannel_spec m.ctx _ (hw _) _ _ _).2 h1
    rw [e1]; rfl

end LDL
