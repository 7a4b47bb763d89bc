import Verif.Spec.Commands
import Verif.Lemmas.Commands
import Verif.Lemmas.Deliver
import Verif.Lemmas.DataOp
import Verif.Lemmas.Channel
import Verif.Lemmas.Emits
import Verif.Lemmas.SessionOk

/-!
# The effect of MAC commands
-/

namespace LDL
open Spec

/-! ### Channel masks, bit by bit -/

/-- The bit of a channel in a mask. -/
def bit (k : Nat → Nat) (ch : Nat) : Bool := (k (ch / 8)).testBit (ch % 8)

theorem maskChannel_bit (k : Nat → Nat) (r : Region) (c ch : Nat) :
    bit (maskChannel k r c) ch = (bit k ch || decide (ch = c ∧ c < r.numChannels ∧ c < 72)) := by
  unfold maskChannel bit
  by_cases h : c < r.numChannels ∧ c < 72
  · rw [if_pos h]
    unfold upd
    by_cases h1 : ch / 8 = c / 8
    · rw [if_pos h1, Nat.testBit_or, testBit_one_shiftLeft, h1]
      congr 1
      apply decide_eq_decide.mpr
      constructor
      · intro h2; exact ⟨by omega, h⟩
      · intro h2; omega
    · rw [if_neg h1]
      have : ¬ (ch = c ∧ c < r.numChannels ∧ c < 72) := by rintro ⟨rfl, _⟩; exact h1 rfl
      simp [this]
  · rw [if_neg h]
    have : ¬ (ch = c ∧ c < r.numChannels ∧ c < 72) := fun h2 => h h2.2
    simp [this]

theorem unmaskChannel_bit (k : Nat → Nat) (r : Region) (c ch : Nat) :
    bit (unmaskChannel k r c) ch = (bit k ch && !decide (ch = c ∧ c < r.numChannels ∧ c < 72)) := by
  unfold unmaskChannel bit
  by_cases h : c < r.numChannels ∧ c < 72
  · rw [if_pos h]
    unfold upd
    by_cases h1 : ch / 8 = c / 8
    · rw [if_pos h1, Nat.testBit_and, Nat.testBit_xor, testBit_one_shiftLeft, h1]
      have h255 : (255 : Nat).testBit (ch % 8) = true := by
        have : ∀ k : Fin 8, (255 : Nat).testBit k.val = true := by decide
        exact this ⟨ch % 8, Nat.mod_lt _ (by decide)⟩
      rw [h255]
      congr 1
      by_cases h2 : ch % 8 = c % 8
      · have : ch = c ∧ c < r.numChannels ∧ c < 72 := ⟨by omega, h⟩
        simp [h2, this]
      · have : ¬ (ch = c ∧ c < r.numChannels ∧ c < 72) := by rintro ⟨rfl, _⟩; exact h2 rfl
        simp [h2, this]
    · rw [if_neg h1]
      have : ¬ (ch = c ∧ c < r.numChannels ∧ c < 72) := by rintro ⟨rfl, _⟩; exact h1 rfl
      simp [this]
  · rw [if_neg h]
    have : ¬ (ch = c ∧ c < r.numChannels ∧ c < 72) := fun h2 => h h2.2
    simp [this]

theorem applyMask_bit (r : Region) (bits base n : Nat) (k : Nat → Nat) (ch : Nat) :
    bit ((List.range n).foldl (applyMaskBit r bits base) k) ch =
      if base ≤ ch ∧ ch < base + n ∧ ch < r.numChannels ∧ ch < 72 then !bits.testBit (ch - base) else bit k ch := by
  induction n with
  | zero =>
    rw [if_neg (by omega)]; rfl
  | succ n ih =>
    rw [List.range_succ, List.foldl_append]
    simp only [List.foldl_cons, List.foldl_nil]
    generalize (List.range n).foldl (applyMaskBit r bits base) k = k' at ih
    unfold applyMaskBit
    by_cases hb : bits &&& 1 <<< n > 0
    · rw [if_pos hb, unmaskChannel_bit, ih]
      have hb' := (and_bit_pos bits n).mp hb
      by_cases hc : ch = base + n
      · subst hc
        rw [if_neg (by omega)]
        by_cases hr : base + n < r.numChannels ∧ base + n < 72
        · rw [if_pos (by omega), Nat.add_sub_cancel_left, hb']; simp [hr]
        · rw [if_neg (by omega)]; simp; intro _; omega
      · have : ¬ (ch = base + n ∧ base + n < r.numChannels ∧ base + n < 72) := fun h => hc h.1
        simp only [this, decide_false, Bool.not_false, Bool.and_true]
        have : (base ≤ ch ∧ ch < base + n ∧ ch < r.numChannels ∧ ch < 72) ↔
          (base ≤ ch ∧ ch < base + (n + 1) ∧ ch < r.numChannels ∧ ch < 72) := by omega
        simp only [this]
    · rw [if_neg hb, maskChannel_bit, ih]
      have hb' : bits.testBit n = false := by
        apply Bool.eq_false_iff.mpr
        exact fun h => hb ((and_bit_pos bits n).mpr h)
      by_cases hc : ch = base + n
      · subst hc
        rw [if_neg (by omega)]
        by_cases hr : base + n < r.numChannels ∧ base + n < 72
        · rw [if_pos (by omega), Nat.add_sub_cancel_left, hb']; simp [hr]
        · rw [if_neg (by omega)]; simp; intro h1 h2; exact absurd ⟨h1, h2⟩ hr
      · have : ¬ (ch = base + n ∧ base + n < r.numChannels ∧ base + n < 72) := fun h => hc h.1
        simp only [this, decide_false, Bool.or_false]
        have : (base ≤ ch ∧ ch < base + n ∧ ch < r.numChannels ∧ ch < 72) ↔
          (base ≤ ch ∧ ch < base + (n + 1) ∧ ch < r.numChannels ∧ ch < 72) := by omega
        simp only [this]

theorem foldMask_bit (r : Region) (n : Nat) (k : Nat → Nat) (ch : Nat) :
    bit ((List.range n).foldl (fun k i => maskChannel k r i) k) ch =
      (bit k ch || decide (ch < n ∧ ch < r.numChannels ∧ ch < 72)) := by
  induction n with
  | zero => simp
  | succ n ih =>
    rw [List.range_succ, List.foldl_append]
    simp only [List.foldl_cons, List.foldl_nil]
    rw [maskChannel_bit, ih, Bool.or_assoc]
    congr 1
    rw [← Bool.decide_or]
    apply decide_eq_decide.mpr
    omega

theorem foldUnmask_bit (r : Region) (n : Nat) (k : Nat → Nat) (ch : Nat) :
    bit ((List.range n).foldl (fun k i => unmaskChannel k r i) k) ch =
      (bit k ch && !decide (ch < n ∧ ch < r.numChannels ∧ ch < 72)) := by
  induction n with
  | zero => simp
  | succ n ih =>
    rw [List.range_succ, List.foldl_append]
    simp only [List.foldl_cons, List.foldl_nil]
    rw [unmaskChannel_bit, ih, Bool.and_assoc]
    congr 1
    rw [← Bool.not_or, ← Bool.decide_or]
    congr 1
    apply decide_eq_decide.mpr
    omega

theorem allMasked_iff (k : Nat → Nat) (h : ∀ i, k i < 256) : allChannelsAreMasked k = true ↔ ∀ ch < 72, bit k ch = true := by
  have hb : ∀ x < 256, x = 255 ↔ ∀ b < 8, x.testBit b = true := by
    have : ∀ x : Fin 256, x.val = 255 ↔ ∀ b : Fin 8, x.val.testBit b.val = true := by decide +kernel
    intro x hx
    rw [this ⟨x, hx⟩]
    exact ⟨fun h b hb => h ⟨b, hb⟩, fun h b => h b.val b.isLt⟩
  unfold allChannelsAreMasked
  rw [List.all_eq_true]
  simp only [beq_iff_eq]
  constructor
  · intro ha ch hch
    have := ha (ch / 8) (by simp only [List.mem_cons, List.not_mem_nil, or_false]; omega)
    exact (hb _ (h _)).mp this _ (Nat.mod_lt _ (by decide))
  · intro ha i hi
    simp only [List.mem_cons, List.not_mem_nil, or_false] at hi
    refine (hb _ (h i)).mpr fun b hlt => ?_
    have := ha (8 * i + b) (by omega)
    unfold bit at this
    have e1 : (8 * i + b) / 8 = i := by omega
    have e2 : (8 * i + b) % 8 = b := by omega
    rw [e1, e2] at this
    exact this

/-! ### Parsed commands -/

theorem nextCommand_wf {v11 : Bool} {bs r : Bytes} {c : DownCmd} (h : nextCommand v11 bs = some (c, r)) :
    WFCommand v11 c := by
  have h2 : ∀ a b : UInt8, leValue [a, b] < 65536 := fun a b => Nat.lt_of_lt_of_le (Stream.leValue_lt [a, b]) (by simp)
  have h3 : ∀ a b c : UInt8, leValue [a, b, c] < 16777216 := fun a b c => Nat.lt_of_lt_of_le (Stream.leValue_lt [a, b, c]) (by simp)
  have h4 : ∀ a b c d : UInt8, leValue [a, b, c, d] < 4294967296 := fun a b c d => Nat.lt_of_lt_of_le (Stream.leValue_lt [a, b, c, d]) (by simp)
  have h1 : ∀ a : UInt8, a.toNat < 256 := fun a => a.toNat_lt
  rcases bs with _ | ⟨cid, bs⟩
  · cases h
  · simp only [nextCommand] at h
    split at h
    case h_1 m g r _ => cases h; exact ⟨h1 m, h1 g⟩
    case h_2 a m0 m1 n r _ =>
      cases h
      have := h1 a; have := h1 n
      exact ⟨by omega, by omega, h2 _ _, by omega, by omega⟩
    case h_3 d r _ => cases h; show _ < _; omega
    case h_4 d f0 f1 f2 r _ =>
      cases h
      have := h3 f0 f1 f2
      exact ⟨by omega, by omega, by omega, by omega⟩
    case h_5 => cases h; trivial
    case h_6 i f0 f1 f2 d r _ =>
      cases h
      have := h3 f0 f1 f2
      have := h1 d
      exact ⟨h1 i, by omega, by omega, by omega, by omega⟩
    case h_7 d r _ => cases h; show _ < _; omega
    case h_8 d r _ => cases h; show _ < _; omega
    case h_9 i f0 f1 f2 r _ =>
      cases h
      have := h3 f0 f1 f2
      exact ⟨h1 i, by omega, by omega⟩
    case h_10 => cases h; exact ⟨h4 .., h1 _⟩
    case h_11 d r _ =>
      split at h
      · next hv => cases h; exact ⟨hv, by omega⟩
      · cases h
    case h_12 d r _ =>
      have := h1 d
      split at h
      · next hv => cases h; exact ⟨hv, by omega, by omega⟩
      · cases h
    case h_13 w0 w1 r _ =>
      split at h
      · next hv => cases h; exact ⟨hv, by omega, by omega, by omega, by omega⟩
      · cases h
    case h_14 d r _ =>
      have := h1 d
      split at h
      · next hv => cases h; exact ⟨hv, by omega, by omega⟩
      · cases h
    case h_15 => cases h

theorem parseCommands_wf (v11 : Bool) (bs : Bytes) : ∀ c ∈ parseCommands v11 bs, WFCommand v11 c := by
  unfold parseCommands
  generalize bs.length = n
  induction n generalizing bs with
  | zero => intro c hc; cases hc
  | succ n ih =>
    intro c hc
    simp only [parseCommandsAux] at hc
    cases hn : nextCommand v11 bs with
    | none => rw [hn] at hc; cases hc
    | some p =>
      obtain ⟨c', r⟩ := p
      rw [hn] at hc
      rcases List.mem_cons.mp hc with rfl | hc
      · exact nextCommand_wf hn
      · exact ih r c hc

/-! ### Parameters other than those of LinkADRReq -/

theorem params_set (s : Session) (t : CmdType) (ht : t ≠ .linkADR) : params (setPending s t) = (params s).answer t := by
  unfold params Params.answer
  simp only [Params.mk.injEq]
  refine ⟨rfl, rfl, rfl, rfl, rfl, rfl, rfl, rfl, rfl, rfl, rfl, rfl, rfl, rfl, ?_⟩
  funext u
  rw [← Bool.decide_or]
  apply decide_eq_decide.mpr
  rw [due_set]
  constructor
  · rintro ⟨h | h, h'⟩
    · exact Or.inr ⟨h, h'⟩
    · exact Or.inl h
  · rintro (h | h)
    · subst h; exact ⟨Or.inr rfl, ht⟩
    · exact ⟨Or.inl h.1, h.2⟩

theorem params_set_adr (s : Session) : params (setPending s .linkADR) = params s := by
  unfold params
  simp only [Params.mk.injEq]
  refine ⟨rfl, rfl, rfl, rfl, rfl, rfl, rfl, rfl, rfl, rfl, rfl, rfl, rfl, rfl, ?_⟩
  funext u
  apply decide_eq_decide.mpr
  rw [due_set]
  constructor
  · rintro ⟨h | h, h'⟩
    · exact ⟨h, h'⟩
    · exact absurd h h'
  · rintro ⟨h, h'⟩; exact ⟨Or.inl h, h'⟩

theorem params_clear (s : Session) (t : CmdType) :
    params (clearPending s t) = { params s with due := fun u => (params s).due u && !decide (u = t) } := by
  unfold params
  simp only [Params.mk.injEq]
  refine ⟨rfl, rfl, rfl, rfl, rfl, rfl, rfl, rfl, rfl, rfl, rfl, rfl, rfl, rfl, ?_⟩
  funext u
  rw [← decide_not, ← Bool.decide_and]
  apply decide_eq_decide.mpr
  rw [due_clear]
  constructor
  · rintro ⟨⟨h, h1⟩, h2⟩; exact ⟨⟨h, h2⟩, h1⟩
  · rintro ⟨⟨h, h1⟩, h2⟩; exact ⟨⟨h, h2⟩, h1⟩

theorem isDynamic_eq (r : Region) : r.isDynamic = definable r := by cases r <;> rfl
theorem txParam_eq (r : Region) : r.txParamSetupImplemented = hasTxParam r := by cases r <;> rfl
theorem validateFreq_eq (r : Region) (f : Nat) : r.validateFreq f = channelFreq r f := by cases r <;> rfl
theorem validateRate_eq {r : Region} (h : definable r = true) (i lo hi : Nat) :
    r.validateRate i lo hi = decide (i < 16 ∧ hi ≤ 5) := by
  unfold Region.validateRate Region.upRateRange
  cases r <;> first | (exact absurd h (by decide)) | skip
  all_goals
    simp only []
    by_cases hi' : i < 16
    · rw [if_pos hi']
      apply decide_eq_decide.mpr
      omega
    · rw [if_neg hi', decide_eq_false (by omega)]

theorem clampMargin_eq (x : Int) : clampMargin x = margin x := by
  unfold clampMargin margin
  split
  · omega
  · split <;> omega

/-- The word stored for a channel. -/
theorem channelWord_eq (k a b : Nat) (hk : k < 16777216) (ha : a < 16) (hb : b < 16) :
    u32 (k <<< 8) ||| (a <<< 4) ||| (b &&& 0xf) = k * 256 + a * 16 + b := by
  have h1 : u32 (k <<< 8) = k <<< 8 := by
    unfold u32; rw [Nat.shiftLeft_eq]; exact Nat.mod_eq_of_lt (by omega)
  have h2 : b &&& 0xf = b := by
    rw [show (0xf : Nat) = 2 ^ 4 - 1 from rfl, Nat.and_two_pow_sub_one_eq_mod]
    exact Nat.mod_eq_of_lt hb
  have h3 : k <<< 8 ||| a <<< 4 = (k <<< 4 ||| a) <<< 4 := by
    rw [Nat.shiftLeft_or_distrib, ← Nat.shiftLeft_add]
  have h4 : k <<< 4 ||| a = k <<< 4 + a := (Nat.shiftLeft_add_eq_or_of_lt (by simpa using ha) k).symm
  rw [h1, h2, h3, h4, ← Nat.shiftLeft_add_eq_or_of_lt (by simpa using hb), Nat.shiftLeft_eq, Nat.shiftLeft_eq]
  omega

theorem setChannel_chan {s : Session} (hr : definable s.region = true) {i f lo hi : Nat} (hi' : i < 16)
    (hf : channelFreq s.region f = true) (h100 : f % 100 = 0) (h24 : f / 100 < 2 ^ 24) (hlo : lo < 16) (hhi : hi < 16) :
    ∃ cc, (setChannel s i f lo hi).2 = { s with chConfig := cc } ∧
      ∀ j, chan { s with chConfig := cc } j = if j = i then some (f, lo, hi) else chan s j := by
  have hn : s.region.numChannels = 16 := by
    revert hr; cases s.region <;> intro hr <;> first | rfl | exact absurd hr (by decide)
  have hf0 : 25600 < f := by
    revert hf
    cases s.region <;> simp only [channelFreq, decide_eq_true_eq] <;> omega
  refine ⟨upd s.chConfig i (u32 ((f / 100) <<< 8) ||| (lo <<< 4) ||| (hi &&& 0xf)), ?_, ?_⟩
  · unfold setChannel
    rw [if_pos ⟨by omega, hi'⟩, if_neg (by omega), if_pos (by rw [validateFreq_eq]; exact hf)]
  · intro j
    rw [channelWord_eq _ _ _ (by omega) hlo hhi]
    by_cases hj : j = i
    · subst hj
      rw [if_pos rfl]
      unfold chan
      have hu : ∀ w, upd s.chConfig j w j = w := fun w => if_pos rfl
      simp only [hu]
      revert hr
      cases s.region <;> intro hr <;> first | exact absurd hr (by decide) | skip
      all_goals
        simp only []
        rw [if_pos ⟨hi', by omega⟩]
        simp only [Option.some.injEq, Prod.mk.injEq]
        omega
    · rw [if_neg hj]
      have hu : ∀ w, upd s.chConfig i w j = s.chConfig j := fun w => if_neg hj
      unfold chan
      simp only [hu]

theorem linkADRMask_shape (s : Session) (a b : Nat) : ∃ k l, linkADRMask s a b = { s with chMask := k, linkADRAns := l } := by
  unfold linkADRMask
  (repeat' split) <;> exact ⟨_, _, rfl⟩

theorem linkADREnd_shape (s : Session) (a b c : Nat) : ∃ l r p n,
    (linkADREnd s a b c).1 = setPending { s with linkADRAns := l, rate := r, power := p, nbTrans := n } .linkADR := by
  have h1 : ∀ (s : Session) x, ∃ n, adrNbTrans s x = { s with nbTrans := n } := by
    intro s x; unfold adrNbTrans; split <;> exact ⟨_, rfl⟩
  have h2 : ∀ (s : Session) x, ∃ l r, adrRate s x = { s with linkADRAns := l, rate := r } := by
    intro s x; unfold adrRate; (repeat' split) <;> exact ⟨_, _, rfl⟩
  have h3 : ∀ (s : Session) x, ∃ l r, adrPower s x = { s with linkADRAns := l, power := r } := by
    intro s x; unfold adrPower; (repeat' split) <;> exact ⟨_, _, rfl⟩
  have h4 : ∀ (s : Session), ∃ l, adrMaskCheck s = { s with linkADRAns := l } := by
    intro s; unfold adrMaskCheck; split <;> exact ⟨_, rfl⟩
  unfold linkADREnd
  simp only []
  obtain ⟨n, e1⟩ := h1 { s with linkADRAns := { s.linkADRAns with dataRateOK := true, powerOK := true } } c
  obtain ⟨l2, r, e2⟩ := h2 (adrNbTrans { s with linkADRAns := { s.linkADRAns with dataRateOK := true, powerOK := true } } c) a
  obtain ⟨l3, p, e3⟩ := h3 (adrRate (adrNbTrans { s with linkADRAns := { s.linkADRAns with dataRateOK := true, powerOK := true } } c) a) b
  obtain ⟨l4, e4⟩ := h4 (adrPower (adrRate (adrNbTrans { s with linkADRAns := { s.linkADRAns with dataRateOK := true, powerOK := true } } c) a) b)
  refine ⟨l4, r, p, n, ?_⟩
  rw [e4, e3, e2, e1]

theorem params_adr (s : Session) (k : Nat → Nat) (l : LinkADRAns) (r p n : Nat) :
    params { s with chMask := k, linkADRAns := l, rate := r, power := p, nbTrans := n } = params s := rfl

/-- One command, on the parameters other than those of LinkADRReq. -/
theorem applyCommand_params (cfg : Cfg) (e : Env) (next : Bool) (c : DownCmd) (m : Mac) (a : AdrState)
    (hw : WFCommand cfg.v11 c) : params (applyCommand cfg e next c m a).1.ctx =
      obey m.ctx.region m.ctx.version (u8 e.battery) m.rxSnr (params m.ctx) c := by
  cases c <;> simp only [applyCommand, obey]
  case linkCheck => rfl
  case deviceTime => rfl
  case linkADR dr pw mask cntl nb =>
    split
    · rfl
    · obtain ⟨k, l, h1⟩ := linkADRMask_shape m.ctx mask cntl
      split
      · show params (linkADRMask m.ctx mask cntl) = _
        rw [h1]; rfl
      · show params (linkADREnd (linkADRMask m.ctx mask cntl) dr pw nb).1 = _
        obtain ⟨l', r, p, n, h2⟩ := linkADREnd_shape (linkADRMask m.ctx mask cntl) dr pw nb
        rw [h2, params_set_adr, h1]; rfl
  case newChannel i f hi lo =>
    rw [isDynamic_eq]
    by_cases hd : definable m.ctx.region = true
    · rw [if_pos hd, if_pos hd, validateFreq_eq, validateRate_eq hd]
      simp only []
      rw [params_set _ _ (by decide)]
      congr 1
      by_cases hc : decide (i < 16 ∧ hi ≤ 5) = true ∧ channelFreq m.ctx.region f = true
      · rw [hc.1, hc.2]
        simp only [Bool.and_self, if_pos]
        obtain ⟨w1, w2, w3, w4, w5⟩ := hw
        have hi' : i < 16 := (of_decide_eq_true hc.1).1
        obtain ⟨cc, e1, e2⟩ := setChannel_chan (s := { m.ctx with newChannelAns := ⟨true, true⟩ }) (i := i) (f := f) (lo := lo)
          (hi := hi) hd hi' hc.2 w2 w3 w5 w4
        rw [e1]
        unfold params
        simp only [Params.mk.injEq, and_true, true_and]
        refine ⟨?_, rfl⟩
        funext j
        rw [e2 j]
        rfl
      · have : (decide (i < 16 ∧ hi ≤ 5) && channelFreq m.ctx.region f) = false := by
          apply Bool.eq_false_iff.mpr
          rw [ne_eq, Bool.and_eq_true]; exact hc
        rw [this, if_neg (by decide)]
        unfold params
        simp only [Params.mk.injEq, and_true, true_and]
        refine ⟨?_, rfl⟩
        funext j
        rw [if_neg (fun h => hc h.2)]
        rfl
    · rw [if_neg hd, if_neg hd]
  case dlChannel =>
    rw [isDynamic_eq, validateFreq_eq]
    split
    · exact params_set _ _ (by decide)
    · rfl
  case txParamSetup =>
    rw [txParam_eq]
    split
    · exact params_set _ _ (by decide)
    · rfl
  case adrParamSetup l d =>
    obtain ⟨_, w1, w2⟩ := hw
    have hp : ∀ x, x < 16 → u16 (1 <<< x) = 2 ^ x := by
      intro x hx
      unfold u16
      rw [Nat.one_shiftLeft]
      refine Nat.mod_eq_of_lt (Nat.lt_of_lt_of_le (Nat.pow_lt_pow_right (by decide) hx) (by decide))
    rw [hp l w1, hp d w2]
    exact params_set _ _ (by decide)
  case devStatus =>
    rw [clampMargin_eq]
    exact params_set _ _ (by decide)
  case rekey v =>
    split
    · exact params_clear _ _
    · rfl
  all_goals first | rfl | exact params_set _ _ (by decide)

/-- The parts of a session no command touches. -/
structure SameSession (s s' : Session) : Prop where
  magic : s'.magic = s.magic
  joined : s'.joined = s.joined
  adr : s'.adr = s.adr
  version : s'.version = s.version
  region : s'.region = s.region
  up : s'.up = s.up
  appDown : s'.appDown = s.appDown
  nwkDown : s'.nwkDown = s.nwkDown
  devAddr : s'.devAddr = s.devAddr
  netID : s'.netID = s.netID
  joinNonce : s'.joinNonce = s.joinNonce
  devNonce : s'.devNonce = s.devNonce

theorem SameSession.rfl' (s : Session) : SameSession s s := ⟨rfl, rfl, rfl, rfl, rfl, rfl, rfl, rfl, rfl, rfl, rfl, rfl⟩

theorem SameSession.trans {a b c : Session} (h : SameSession a b) (g : SameSession b c) : SameSession a c :=
  ⟨g.1.trans h.1, g.2.trans h.2, g.3.trans h.3, g.4.trans h.4, g.5.trans h.5, g.6.trans h.6, g.7.trans h.7,
   g.8.trans h.8, g.9.trans h.9, g.10.trans h.10, g.11.trans h.11, g.12.trans h.12⟩

theorem applyCommand_same (cfg : Cfg) (e : Env) (next : Bool) (c : DownCmd) (m : Mac) (a : AdrState) :
    SameSession m.ctx (applyCommand cfg e next c m a).1.ctx := by
  cases c <;> simp only [applyCommand]
  case linkADR dr pw mask cntl nb =>
    split
    · (constructor <;> rfl)
    · obtain ⟨k, l, h1⟩ := linkADRMask_shape m.ctx mask cntl
      split
      · show SameSession m.ctx (linkADRMask m.ctx mask cntl)
        rw [h1]; (constructor <;> rfl)
      · show SameSession m.ctx (linkADREnd (linkADRMask m.ctx mask cntl) dr pw nb).1
        obtain ⟨l', r, p, n, h2⟩ := linkADREnd_shape (linkADRMask m.ctx mask cntl) dr pw nb
        rw [h2, h1]; (constructor <;> rfl)
  case newChannel i f hi lo =>
    split
    · obtain ⟨cc, h⟩ := setChannel_shape { m.ctx with newChannelAns :=
          ⟨m.ctx.region.validateRate i lo hi, m.ctx.region.validateFreq f⟩ } i f lo hi
      split
      · rw [h]; (constructor <;> rfl)
      · (constructor <;> rfl)
    · (constructor <;> rfl)
  all_goals first | (constructor <;> rfl) | (split <;> (constructor <;> rfl))

theorem applyCommand_told (cfg : Cfg) (e : Env) (next : Bool) (c : DownCmd) (m : Mac) (a : AdrState)
    (hw : WFCommand cfg.v11 c) :
    (applyCommand cfg e next c m a).1.out = m.out ++ told (timerDelta m.ticksAtTx e.later) cfg.tps c := by
  cases c <;> simp only [applyCommand, told, List.append_nil]
  case linkCheck => rfl
  case deviceTime s f =>
    have h1 : s <<< 8 ||| f = s * 256 + f := by
      rw [← Nat.shiftLeft_add_eq_or_of_lt (by simpa using hw.2), Nat.shiftLeft_eq]
    have h2 : ∀ t : Nat, u32 (t >>> 8) = t / 256 % 2 ^ 32 := by intro t; rw [Nat.shiftRight_eq_div_pow]; rfl
    simp only [h1, h2, Mac.emit]
    rfl
  all_goals first | rfl | (split <;> first | rfl | (split <;> rfl))

theorem applyCommand_fixed (cfg : Cfg) (e : Env) (next : Bool) (c : DownCmd) (m : Mac) (a : AdrState) :
    (applyCommand cfg e next c m a).1.rxSnr = m.rxSnr ∧ (applyCommand cfg e next c m a).1.ticksAtTx = m.ticksAtTx := by
  obtain ⟨_, _, h, _⟩ := applyCommand_shape cfg e next c m a
  rw [h]; exact ⟨rfl, rfl⟩

/-- A list of commands. -/
theorem runCommands_params (cfg : Cfg) (e : Env) (tail : Bool) (cs : List DownCmd) (m : Mac) (a : AdrState)
    (hw : ∀ c ∈ cs, WFCommand cfg.v11 c) :
    params (runCommands cfg e tail cs m a).1.ctx =
        cs.foldl (obey m.ctx.region m.ctx.version (u8 e.battery) m.rxSnr) (params m.ctx) ∧
      SameSession m.ctx (runCommands cfg e tail cs m a).1.ctx ∧
      (runCommands cfg e tail cs m a).1.out = m.out ++ cs.flatMap (told (timerDelta m.ticksAtTx e.later) cfg.tps) := by
  induction cs generalizing m a with
  | nil => exact ⟨rfl, .rfl' _, (List.append_nil _).symm⟩
  | cons c cs ih =>
    simp only [runCommands, List.foldl_cons, List.flatMap_cons]
    have hc := hw c List.mem_cons_self
    obtain ⟨i1, i2, i3⟩ := ih (applyCommand cfg e (nextADR tail cs) c m a).1 (applyCommand cfg e (nextADR tail cs) c m a).2
      (fun d hd => hw d (List.mem_cons_of_mem _ hd))
    have hs := applyCommand_same cfg e (nextADR tail cs) c m a
    obtain ⟨f1, f2⟩ := applyCommand_fixed cfg e (nextADR tail cs) c m a
    refine ⟨?_, hs.trans i2, ?_⟩
    · rw [i1, hs.region, hs.version, f1, applyCommand_params cfg e _ c m a hc]
    · rw [i3, f2, applyCommand_told cfg e _ c m a hc, List.append_assoc]

/-! ### LinkADRReq -/

/-- The enabled channels of a mask. -/
def enabledOf (k : Nat → Nat) (ch : Nat) : Bool := decide (ch < 72 ∧ ¬ bit k ch = true)

theorem adr_enabled (s : Session) : (adr s).enabled = enabledOf s.chMask := rfl

theorem numChannels_eq (r : Region) : r.numChannels = if definable r = true then 16 else 72 := by cases r <;> rfl

theorem enabledOf_congr {k : Nat → Nat} {f : Nat → Bool} (h : ∀ ch < 72, bit k ch = !f ch) (h' : ∀ ch, ¬ ch < 72 → f ch = false) :
    enabledOf k = f := by
  funext ch
  unfold enabledOf
  by_cases hc : ch < 72
  · rw [h ch hc]; cases f ch <;> simp [hc]
  · rw [h' ch hc]; simp [hc]

theorem bit_of_enabled {k : Nat → Nat} {ch : Nat} (h : ch < 72) : bit k ch = !enabledOf k ch := by
  unfold enabledOf; cases bit k ch <;> simp [h]

theorem enabledOf_ge {k : Nat → Nat} {ch : Nat} (h : ¬ ch < 72) : enabledOf k ch = false := by
  unfold enabledOf; simp [h]

theorem fold_lt (f : (Nat → Nat) → Nat → Nat → Nat) (hf : ∀ k i, (∀ j, k j < 256) → ∀ j, f k i j < 256) (l : List Nat)
    (k : Nat → Nat) (h : ∀ j, k j < 256) : ∀ j, l.foldl f k j < 256 := by
  induction l generalizing k with
  | nil => exact h
  | cons a l ih => exact ih _ (hf k a h)

/-- The channel mask of one LinkADRReq. -/
theorem linkADRMask_spec (s : Session) (dr pw mask cntl nb : Nat) :
    match adrMask s.region (adr s).enabled (.linkADR dr pw mask cntl nb) with
    | some en => ∃ k, linkADRMask s mask cntl = { s with chMask := k } ∧ enabledOf k = en ∧ ((∀ i, s.chMask i < 256) → ∀ i, k i < 256)
    | none => linkADRMask s mask cntl = { s with linkADRAns := { s.linkADRAns with channelMaskOK := false } } := by
  unfold adrMask linkADRMask
  simp only [isDynamic_eq, adr_enabled]
  have hn := numChannels_eq s.region
  by_cases hd : definable s.region = true
  · rw [if_pos hd] at hn
    simp only [if_pos hd]
    by_cases h0 : cntl = 0
    · simp only [if_pos h0]
      refine ⟨_, rfl, ?_, applyMask16_lt _ _ _ _⟩
      apply enabledOf_congr
      · intro ch hch
        unfold applyMask16
        rw [applyMask_bit, hn]
        by_cases h16 : ch < 16
        · rw [if_pos (by omega), if_pos h16, Nat.sub_zero]
        · rw [if_neg (by omega), if_neg h16, bit_of_enabled hch]
      · intro ch hch
        rw [if_neg (by omega), enabledOf_ge hch]
    · simp only [if_neg h0]
      by_cases h6 : cntl = 6
      · simp only [if_pos h6]
        refine ⟨_, rfl, ?_, fun _ _ => by show 0 < 256; decide⟩
        apply enabledOf_congr
        · intro ch hch
          rw [decide_eq_true hch]
          show (0 : Nat).testBit _ = _
          simp
        · intro ch hch; exact decide_eq_false hch
      · simp only [if_neg h6]
  · rw [if_neg hd] at hn
    simp only [if_neg hd]
    by_cases h6 : cntl = 6
    · simp only [if_pos h6]
      refine ⟨_, rfl, ?_, ?_⟩
      · apply enabledOf_congr
        · intro ch hch
          rw [foldUnmask_bit, hn, bit_of_enabled hch, Bool.not_or, Bool.and_comm]
          congr 2
          apply decide_eq_decide.mpr; omega
        · intro ch hch
          rw [enabledOf_ge hch, decide_eq_false (by omega)]; rfl
      · intro h
        exact fold_lt _ (fun k i => unmaskChannel_lt _ _ _) _ _ h
    · simp only [if_neg h6]
      by_cases h7 : cntl = 7
      · simp only [if_pos h7]
        refine ⟨_, rfl, ?_, ?_⟩
        · apply enabledOf_congr
          · intro ch hch
            rw [foldMask_bit, hn, bit_of_enabled hch, Bool.not_and, Bool.not_not, Bool.or_comm]
            congr 1
            apply decide_eq_decide.mpr; omega
          · intro ch hch
            rw [enabledOf_ge hch, Bool.and_false]
        · intro h
          exact fold_lt _ (fun k i => maskChannel_lt _ _ _) _ _ h
      · simp only [if_neg h7]
        refine ⟨_, rfl, ?_, applyMask16_lt _ _ _ _⟩
        apply enabledOf_congr
        · intro ch hch
          unfold applyMask16
          rw [applyMask_bit, hn]
          by_cases hb : 16 * cntl ≤ ch ∧ ch < 16 * cntl + 16 ∧ ch < 72
          · rw [if_pos (by omega), if_pos hb, Nat.mul_comm]
          · rw [if_neg (by omega), if_neg hb, bit_of_enabled hch]
        · intro ch hch
          rw [if_neg (by omega), enabledOf_ge hch]

/-- What LinkADRReq changes, as the session has it. -/
def adrPart (s : Session) : (Nat → Nat) × Nat × Nat × Nat × LinkADRAns × Bool :=
  (s.chMask, s.rate, s.power, s.nbTrans, s.linkADRAns, decide (Due s .linkADR))

theorem isADR_eq (c : DownCmd) : isADR c = isLinkADR c := rfl

theorem adrPart_set (s : Session) (t : CmdType) (ht : t ≠ .linkADR) : adrPart (setPending s t) = adrPart s := by
  unfold adrPart
  have : decide (Due (setPending s t) .linkADR) = decide (Due s .linkADR) := by
    apply decide_eq_decide.mpr
    rw [due_set]
    exact ⟨fun h => h.elim id fun h => absurd h.symm ht, Or.inl⟩
  rw [this]; rfl

theorem adrPart_clear (s : Session) (t : CmdType) (ht : t ≠ .linkADR) : adrPart (clearPending s t) = adrPart s := by
  unfold adrPart
  have : decide (Due (clearPending s t) .linkADR) = decide (Due s .linkADR) := by
    apply decide_eq_decide.mpr
    rw [due_clear]
    exact ⟨And.left, fun h => ⟨h, ht.symm⟩⟩
  rw [this]; rfl

theorem notADR {cfg : Cfg} (e : Env) (next : Bool) {c : DownCmd} (h : isADR c = false) (m : Mac) (a : AdrState) :
    adrPart (applyCommand cfg e next c m a).1.ctx = adrPart m.ctx ∧ (applyCommand cfg e next c m a).2 = a := by
  cases c <;> simp only [applyCommand]
  case linkADR => cases h
  case newChannel i f hi lo =>
    split
    · refine ⟨?_, by trivial⟩
      simp only []
      rw [adrPart_set _ _ (by decide)]
      obtain ⟨cc, h⟩ := setChannel_shape { m.ctx with newChannelAns :=
          ⟨m.ctx.region.validateRate i lo hi, m.ctx.region.validateFreq f⟩ } i f lo hi
      split
      · rw [h]; rfl
      · rfl
    · exact ⟨rfl, by trivial⟩
  case linkCheck => exact ⟨rfl, trivial⟩
  case deviceTime => exact ⟨rfl, trivial⟩
  case forceRejoin => exact ⟨trivial, trivial⟩
  case rekey =>
    split
    · exact ⟨adrPart_clear _ _ (by decide), rfl⟩
    · exact ⟨rfl, rfl⟩
  case dlChannel =>
    split
    · exact ⟨adrPart_set _ _ (by decide), rfl⟩
    · exact ⟨rfl, rfl⟩
  case txParamSetup =>
    split
    · exact ⟨adrPart_set _ _ (by decide), rfl⟩
    · exact ⟨rfl, rfl⟩
  all_goals exact ⟨adrPart_set _ _ (by decide), trivial⟩

/-- Commands up to the first LinkADRReq. -/
theorem runCommands_pre {cfg : Cfg} (e : Env) (tail : Bool) (pre cs : List DownCmd) (h : ∀ c ∈ pre, isADR c = false) (m : Mac)
    (a : AdrState) : ∃ m', runCommands cfg e tail (pre ++ cs) m a = runCommands cfg e tail cs m' a ∧
      adrPart m'.ctx = adrPart m.ctx ∧ m'.ctx.region = m.ctx.region := by
  induction pre generalizing m with
  | nil => exact ⟨m, rfl, rfl, rfl⟩
  | cons c pre ih =>
    obtain ⟨h1, h2⟩ := notADR (cfg := cfg) e (nextADR tail (pre ++ cs)) (h c List.mem_cons_self) m a
    obtain ⟨m', i1, i2, i3⟩ := ih (fun d hd => h d (List.mem_cons_of_mem _ hd)) (applyCommand cfg e (nextADR tail (pre ++ cs)) c m a).1
    refine ⟨m', ?_, i2.trans h1, i3.trans (applyCommand_region ..)⟩
    rw [← i1]
    simp only [List.cons_append, runCommands]
    rw [h2]

/-- Once there is an answer due, further LinkADRReq are ignored. -/
theorem runCommands_post {cfg : Cfg} (e : Env) (tail : Bool) (cs : List DownCmd) (m : Mac) (a : AdrState)
    (h : Due m.ctx .linkADR) : adrPart (runCommands cfg e tail cs m a).1.ctx = adrPart m.ctx ∧
      (runCommands cfg e tail cs m a).2 = a := by
  induction cs generalizing m with
  | nil => exact ⟨rfl, rfl⟩
  | cons c cs ih =>
    simp only [runCommands]
    have hstep : adrPart (applyCommand cfg e (nextADR tail cs) c m a).1.ctx = adrPart m.ctx ∧
        (applyCommand cfg e (nextADR tail cs) c m a).2 = a := by
      cases hc : isADR c with
      | false => exact notADR e _ hc m a
      | true =>
        cases c <;> first | cases hc | skip
        simp only [applyCommand]
        rw [if_pos ((commandIsPending_iff ..).mpr h)]
        exact ⟨rfl, rfl⟩
    have hd : Due (applyCommand cfg e (nextADR tail cs) c m a).1.ctx .linkADR := by
      have := congrArg (fun p => p.2.2.2.2.2) hstep.1
      exact of_decide_eq_true (this.trans (decide_eq_true h))
    obtain ⟨i1, i2⟩ := ih _ hd
    rw [hstep.2]
    exact ⟨i1.trans hstep.1, i2⟩

theorem adrRate_spec {s : Session} (dr : Nat) (h : dr < 16) : adrRate s dr =
    if dr = 15 ∨ dr ∈ upRates s.region then { s with rate := if dr = 15 then s.rate else dr }
    else { s with linkADRAns := { s.linkADRAns with dataRateOK := false } } := by
  unfold adrRate
  by_cases h15 : dr = 15
  · rw [if_neg (by omega), if_pos (Or.inl h15), if_pos h15]
  · rw [if_pos (by omega)]
    by_cases hr : dr ∈ upRates s.region
    · rw [if_pos ((rateSettingIsValid_iff ..).mpr hr), if_pos (Or.inr hr), if_neg h15]
    · rw [if_neg (fun hc => hr ((rateSettingIsValid_iff ..).mp hc)), if_neg (fun hc => hc.elim h15 hr)]

theorem adrPower_spec {s : Session} (pw : Nat) (h : pw < 16) : adrPower s pw =
    if pw = 15 ∨ pw ≤ maxPowerIndex s.region then { s with power := if pw = 15 then s.power else pw }
    else { s with linkADRAns := { s.linkADRAns with powerOK := false } } := by
  unfold adrPower
  by_cases h15 : pw = 15
  · rw [if_neg (by omega), if_pos (Or.inl h15), if_pos h15]
  · rw [if_pos (by omega)]
    by_cases hr : pw ≤ maxPowerIndex s.region
    · rw [if_pos ((validateTXPower_iff ..).mpr hr), if_pos (Or.inr hr), if_neg h15]
    · rw [if_neg (fun hc => hr ((validateTXPower_iff ..).mp hc)), if_neg (fun hc => hc.elim h15 hr)]

theorem adrNbTrans_spec {s : Session} (nb : Nat) (h : nb < 16) : adrNbTrans s nb =
    { s with nbTrans := if nb = 0 then s.nbTrans else min 3 nb } := by
  have h2 : nb &&& 0xf = nb := by
    rw [show (0xf : Nat) = 2 ^ 4 - 1 from rfl, Nat.and_two_pow_sub_one_eq_mod]
    exact Nat.mod_eq_of_lt h
  unfold adrNbTrans REDUNDANCY_MAX
  rw [h2]
  by_cases h0 : nb = 0
  · rw [if_neg (by omega), if_pos h0]
  · rw [if_pos (by omega), if_neg h0]
    congr 1
    split <;> omega

theorem any_iff_not_all (k : Nat → Nat) (h : ∀ i, k i < 256) :
    (List.range 72).any (enabledOf k) = !allChannelsAreMasked k := by
  cases ha : allChannelsAreMasked k with
  | true =>
    rw [Bool.not_true, List.any_eq_false]
    intro ch hch
    have := (allMasked_iff k h).mp ha ch (List.mem_range.mp hch)
    unfold enabledOf
    simp [this]
  | false =>
    rw [Bool.not_false, List.any_eq_true]
    have : ¬ ∀ ch < 72, bit k ch = true := fun hc => by
      rw [(allMasked_iff k h).mpr hc] at ha; cases ha
    apply Decidable.byContradiction
    intro hc
    refine this fun ch hch => ?_
    apply Decidable.byContradiction
    intro hb
    exact hc ⟨ch, List.mem_range.mpr hch, by unfold enabledOf; simp [hch, hb]⟩

/-- The end of a block. -/
theorem linkADREnd_spec {s : Session} (dr pw nb : Nat) (hdr : dr < 16) (hpw : pw < 16) (hnb : nb < 16)
    (hm : ∀ i, s.chMask i < 256) :
    let ok := (s.linkADRAns.channelMaskOK && (List.range 72).any (enabledOf s.chMask), decide (dr = 15 ∨ dr ∈ upRates s.region),
      decide (pw = 15 ∨ pw ≤ maxPowerIndex s.region))
    ∃ r p, linkADREnd s dr pw nb = (setPending { s with
        linkADRAns := { s.linkADRAns with channelMaskOK := ok.1, dataRateOK := ok.2.1, powerOK := ok.2.2 }
        rate := r, power := p, nbTrans := if nb = 0 then s.nbTrans else min 3 nb } .linkADR,
      if ok.1 && ok.2.1 && ok.2.2 then .ok else .bad) ∧
      (ok.2.1 = true → r = if dr = 15 then s.rate else dr) ∧ (ok.2.2 = true → p = if pw = 15 then s.power else pw) := by
  intro ok
  have hok : ok = (s.linkADRAns.channelMaskOK && !allChannelsAreMasked s.chMask, decide (dr = 15 ∨ dr ∈ upRates s.region),
      decide (pw = 15 ∨ pw ≤ maxPowerIndex s.region)) := by rw [← any_iff_not_all _ hm]
  rw [hok]
  clear hok ok
  unfold linkADREnd
  simp only []
  rw [adrNbTrans_spec nb hnb, adrRate_spec dr hdr]
  simp only []
  by_cases h1 : dr = 15 ∨ dr ∈ upRates s.region
  · rw [if_pos h1, adrPower_spec pw hpw]
    simp only []
    rw [decide_eq_true h1]
    by_cases h2 : pw = 15 ∨ pw ≤ maxPowerIndex s.region
    · rw [if_pos h2, decide_eq_true h2]
      unfold adrMaskCheck
      cases allChannelsAreMasked s.chMask <;> cases hmk : s.linkADRAns.channelMaskOK <;>
        exact ⟨_, _, by simp [hmk], fun _ => rfl, fun _ => rfl⟩
    · rw [if_neg h2, decide_eq_false h2]
      unfold adrMaskCheck
      cases allChannelsAreMasked s.chMask <;> cases hmk : s.linkADRAns.channelMaskOK <;>
        exact ⟨_, s.power, by simp [hmk], fun _ => rfl, fun h => by cases h⟩
  · rw [if_neg h1, adrPower_spec pw hpw]
    simp only []
    rw [decide_eq_false h1]
    by_cases h2 : pw = 15 ∨ pw ≤ maxPowerIndex s.region
    · rw [if_pos h2, decide_eq_true h2]
      unfold adrMaskCheck
      cases allChannelsAreMasked s.chMask <;> cases hmk : s.linkADRAns.channelMaskOK <;>
        exact ⟨s.rate, _, by simp [hmk], fun h => (by cases h), fun _ => rfl⟩
    · rw [if_neg h2, decide_eq_false h2]
      unfold adrMaskCheck
      cases allChannelsAreMasked s.chMask <;> cases hmk : s.linkADRAns.channelMaskOK <;>
        exact ⟨s.rate, s.power, by simp [hmk], fun h => (by cases h), fun h => by cases h⟩

/-- A block of LinkADRReq. -/
theorem runCommands_block {cfg : Cfg} (e : Env) (tail : Bool) (blk post : List DownCmd) (dr pw mask cntl nb : Nat)
    (hb : ∀ c ∈ blk, isADR c = true) (hdr : dr < 16) (hpw : pw < 16) (hnb : nb < 16) (hn : nextADR tail post = false) (m : Mac)
    (a : AdrState) (hnd : ¬ Due m.ctx .linkADR) (hm : ∀ i, m.ctx.chMask i < 256) :
    let ans := adrAnswer m.ctx.region (adr m.ctx).enabled (blk ++ [.linkADR dr pw mask cntl nb]) dr pw
    let ok := m.ctx.linkADRAns.channelMaskOK && ans.1 && ans.2.1 && ans.2.2
    ∃ m', runCommands cfg e tail (blk ++ [.linkADR dr pw mask cntl nb] ++ post) m a =
        runCommands cfg e tail post m' (if ok then .ok else .bad) ∧ Due m'.ctx .linkADR ∧
      m'.ctx.linkADRAns.channelMaskOK = (m.ctx.linkADRAns.channelMaskOK && ans.1) ∧
      m'.ctx.linkADRAns.dataRateOK = ans.2.1 ∧ m'.ctx.linkADRAns.powerOK = ans.2.2 ∧
      (ok = true → adr m'.ctx =
        adrApplied m.ctx.region (adr m.ctx) (blk ++ [.linkADR dr pw mask cntl nb]) dr pw nb) := by
  induction blk generalizing m with
  | nil =>
    have hp : commandIsPending m.ctx .linkADR = false := by
      apply Bool.eq_false_iff.mpr
      exact fun h => hnd ((commandIsPending_iff ..).mp h)
    simp only [List.nil_append, List.cons_append, runCommands, applyCommand, hp, hn, Bool.false_eq_true, if_false]
    have hsp := linkADRMask_spec m.ctx dr pw mask cntl nb
    simp only [adrAnswer, adrApplied, adrMasks]
    generalize hs : linkADRMask m.ctx mask cntl = s at hsp
    rcases Option.eq_none_or_eq_some (adrMask m.ctx.region (adr m.ctx).enabled (.linkADR dr pw mask cntl nb)) with hmk | ⟨en, hmk⟩
    rotate_left
    · simp only [hmk] at hsp ⊢
      obtain ⟨k, e1, e2, e3⟩ := hsp
      subst e1
      subst e2
      have hend := linkADREnd_spec (s := { m.ctx with chMask := k }) dr pw nb hdr hpw hnb (e3 hm)
      simp only [] at hend ⊢
      obtain ⟨r, p, h1, h2, h3⟩ := hend
      rw [h1]
      simp only [Option.getD_some]
      refine ⟨_, rfl, (due_set ..).mpr (Or.inr rfl), rfl, rfl, rfl, ?_⟩
      intro hok
      rw [Bool.and_eq_true, Bool.and_eq_true] at hok
      show Adr.mk r p _ (enabledOf k) = _
      rw [h2 hok.1.2, h3 hok.2]
      rfl
    · simp only [hmk] at hsp ⊢
      subst hsp
      have hend := linkADREnd_spec (s := { m.ctx with linkADRAns := { m.ctx.linkADRAns with channelMaskOK := false } }) dr pw nb
        hdr hpw hnb hm
      simp only [] at hend
      obtain ⟨r, p, h1, h2, h3⟩ := hend
      rw [h1]
      simp only [Bool.false_and, Bool.and_false]
      refine ⟨_, rfl, (due_set ..).mpr (Or.inr rfl), rfl, rfl, rfl, ?_⟩
      intro hok; cases hok
  | cons c blk ih =>
    have hc := hb c List.mem_cons_self
    cases c <;> first | cases hc | skip
    next dr' pw' mask' cntl' nb' =>
    have hp : commandIsPending m.ctx .linkADR = false := by
      apply Bool.eq_false_iff.mpr
      exact fun h => hnd ((commandIsPending_iff ..).mp h)
    have hnext : nextADR tail (blk ++ [.linkADR dr pw mask cntl nb] ++ post) = true := by
      cases blk with
      | nil => rfl
      | cons d blk => exact hb d (List.mem_cons_of_mem _ List.mem_cons_self)
    have hsp := linkADRMask_spec m.ctx dr' pw' mask' cntl' nb'
    simp only [List.cons_append, runCommands, applyCommand, hp, hnext, Bool.false_eq_true, if_false, if_true]
    generalize hs : linkADRMask m.ctx mask' cntl' = s at hsp
    have hih := ih (fun d hd => hb d (List.mem_cons_of_mem _ hd)) { m with ctx := s }
    simp only [adrAnswer, adrApplied, adrMasks] at hih ⊢
    rcases Option.eq_none_or_eq_some (adrMask m.ctx.region (adr m.ctx).enabled (.linkADR dr' pw' mask' cntl' nb')) with hmk | ⟨en, hmk⟩
    rotate_left
    · simp only [hmk] at hsp ⊢
      obtain ⟨k, e1, e2, e3⟩ := hsp
      subst e1
      subst e2
      obtain ⟨m', i1, i2, i3, i4, i5, i6⟩ := hih hnd (e3 hm)
      refine ⟨m', i1, i2, i3, i4, i5, ?_⟩
      intro hok
      rw [i6 hok]
      simp only [Bool.and_eq_true] at hok
      have h1 := hok.1.1.2
      rcases Option.eq_none_or_eq_some (adrMasks m.ctx.region (enabledOf k) (blk ++ [.linkADR dr pw mask cntl nb])) with hn | ⟨en, hn⟩
      · simp only [adr_enabled, hn] at h1; cases h1
      · simp only [adr_enabled, hn]; rfl
    · simp only [hmk] at hsp ⊢
      subst hsp
      obtain ⟨m', i1, i2, i3, i4, i5, i6⟩ := hih hnd hm
      refine ⟨m', ?_, i2, ?_, i4, i5, ?_⟩
      · simp only [Bool.false_and, Bool.and_false] at i1 ⊢; exact i1
      · simp only [Bool.false_and, Bool.and_false] at i3 ⊢; exact i3
      · intro hok; simp at hok

/-- The decomposition of a list of commands around its first block of LinkADRReq. -/
theorem adrBlock_split (cs : List DownCmd) : ∃ pre post, cs = pre ++ adrBlock cs ++ post ∧ (∀ c ∈ pre, isADR c = false) ∧
    (∀ c ∈ adrBlock cs, isADR c = true) ∧ (∀ tail, tail = false → nextADR tail post = false) := by
  refine ⟨cs.takeWhile (fun c => !isLinkADR c), (cs.dropWhile fun c => !isLinkADR c).dropWhile isLinkADR, ?_, ?_, ?_, ?_⟩
  · unfold adrBlock
    rw [List.append_assoc, List.takeWhile_append_dropWhile, List.takeWhile_append_dropWhile]
  · intro c hc
    have : ∀ (l : List DownCmd), c ∈ l.takeWhile (fun c => !isLinkADR c) → isADR c = false := by
      intro l
      induction l with
      | nil => intro h; cases h
      | cons d l ih =>
        intro h
        rw [List.takeWhile_cons] at h
        split at h
        · next hd =>
          rcases List.mem_cons.mp h with rfl | h
          · simpa [isADR_eq] using hd
          · exact ih h
        · cases h
    exact this cs hc
  · intro c hc
    have : ∀ (l : List DownCmd), c ∈ l.takeWhile isLinkADR → isADR c = true := by
      intro l
      induction l with
      | nil => intro h; cases h
      | cons d l ih =>
        intro h
        rw [List.takeWhile_cons] at h
        split at h
        · next hd =>
          rcases List.mem_cons.mp h with rfl | h
          · exact hd
          · exact ih h
        · cases h
    exact this _ hc
  · intro tail ht
    generalize (cs.dropWhile fun c => !isLinkADR c) = l
    induction l with
    | nil => exact ht
    | cons d l ih =>
      rw [List.dropWhile_cons]
      split
      · exact ih
      · next hd => simpa [nextADR, isADR_eq] using hd

/-! ### A delivered message -/

theorem openDown_length {cfg : Cfg} (hE : ∀ k, BlockFn (cfg.E k)) {v : Bool} {k : SessionKeys} {a c d : Nat} {bs : Bytes}
    {msg : DownMsg} (h : openDown cfg.E v k a c d bs = some msg) : msg.commands.length ≤ bs.length := by
  unfold openDown at h
  cases hp : parseData bs with
  | none => rw [hp] at h; cases h
  | some p =>
    rw [hp] at h
    simp only [] at h
    rw [Option.ite_none_right_eq_some] at h
    obtain ⟨_, h2⟩ := h
    injection h2 with h2
    subst h2
    unfold DownMsg.commands
    have hlen : p.fopts.length ≤ bs.length ∧ ∀ q, p.payload = some q → q.2.length ≤ bs.length := by
      unfold parseData at hp
      split at hp
      · next rest =>
        simp only [] at hp
        split at hp
        · injection hp with hp
          subst hp
          refine ⟨?_, ?_⟩
          · simp only [List.length_take, List.length_cons]; omega
          · intro q hq
            simp only [] at hq
            split at hq
            · cases hq
            · next q0 d0 hmid =>
              injection hq with hq
              subst hq
              have := congrArg List.length hmid
              simp only [List.length_take, List.length_drop, List.length_cons] at this ⊢
              omega
        · cases hp
      · cases hp
    simp only []
    cases hpl : p.payload with
    | none =>
      simp only [Option.map_none]
      rw [cryptOpts_length hE]; exact hlen.1
    | some q =>
      simp only [Option.map_some]
      split
      · next heq =>
        injection heq with heq
        have h2 := congrArg (fun x => x.2.length) heq
        simp only [] at h2
        rw [cryptPayload_length hE] at h2
        rw [← h2]; exact hlen.2 q hpl
      · rw [cryptOpts_length hE]; exact hlen.1

theorem params_retire (s : Session) :
    params (clearPending (clearPending (clearPending s .rxParamSetup) .dlChannel) .rxTimingSetup) = (params s).retire := by
  rw [params_clear, params_clear, params_clear]
  simp only [Params.retire, Params.mk.injEq, true_and]
  funext t
  simp only [Bool.and_assoc, ← Bool.not_or, ← Bool.decide_or, or_assoc]

theorem clear3_same (s : Session) :
    SameSession s (clearPending (clearPending (clearPending s .rxParamSetup) .dlChannel) .rxTimingSetup) := by
  constructor <;> rfl

theorem clear3_adr (s : Session) :
    adrPart (clearPending (clearPending (clearPending s .rxParamSetup) .dlChannel) .rxTimingSetup) = adrPart s := by
  rw [adrPart_clear _ _ (by decide), adrPart_clear _ _ (by decide), adrPart_clear _ _ (by decide)]

/-- The reports of a delivered message: those of its commands, the payload, and the end of the operation. -/
def Spec.reports (elapsed tps : Nat) (cs : List DownCmd) (msg : DownMsg) (op : Op) (s : Session) : List Event :=
  cs.flatMap (told elapsed tps) ++ (match msg.userData with
    | some (p, d) => [.rx p d]
    | none => []) ++ dataEndEvents op msg.ack ++ [.sessionUpdated s]

/-- What a delivered message does. -/
theorem effects {cfg : Cfg} (hE : ∀ k, BlockFn (cfg.E k)) {m : Mac} (hr : Reachable cfg m) {e : Env} {msg : DownMsg}
    (hk : KeysOk cfg m) (hrx : Receiving m e) (ho : DataOp m) (hne : e.received.length ≠ 244) (hd : Delivered cfg m e msg) :
    ∃ (y : Mac) (pre : List Event), params y.ctx = (params m.ctx).retire ∧ SameSession m.ctx y.ctx ∧ adrPart y.ctx = adrPart m.ctx ∧
      y.rxSnr = e.snr ∧ y.ticksAtTx = m.ticksAtTx ∧ y.out = m.out ++ pre ∧
      (pre = [.getStatus, .readBuffer, .setMode .sleep] ∨ pre = [.channelReady, .getStatus, .readBuffer, .setMode .sleep]) ∧
      msg.commands.length ≤ 255 ∧
      (process cfg e m).ctx = (if msg.commands = [] then y else processCommands cfg e y msg.commands).ctx ∧
      (process cfg e m).out = (if msg.commands = [] then y else processCommands cfg e y msg.commands).out ++
        (match msg.userData with
          | some (p, d) => [.rx p d]
          | none => []) ++ dataEndEvents m.op msg.ack ++ [.sessionUpdated (process cfg e m).ctx] := by
  have hz : Spec.FirstCounters m.ctx := ⟨hr.sessionOk.appDown, hr.sessionOk.nwkDown⟩
  obtain ⟨lag, x, p, t, hp, h⟩ := delivered hE hk hz hrx ho hne hd
  have hlen : msg.commands.length ≤ 255 := Nat.le_trans (openDown_length hE hd) (received_length e)
  have hx : x.ctx = m.ctx ∧ x.ticksAtTx = m.ticksAtTx ∧ x.op = m.op := by
    obtain ⟨_, _, _, _, _, _, _, _, _, h⟩ := hp.eq
    rw [h]; exact ⟨rfl, rfl, rfl⟩
  have hy : ∃ c o, (if msg.commands = [] then beginMsg (packetState e x) msg
      else processCommands cfg e (beginMsg (packetState e x) msg) msg.commands) =
        { beginMsg (packetState e x) msg with ctx := c, out := o } := by
    split
    · exact ⟨_, _, rfl⟩
    · obtain ⟨⟨c, o, h⟩, _⟩ := processCommands_shape cfg e (beginMsg (packetState e x) msg) msg.commands
      exact ⟨c, o, h⟩
  have hb : (beginMsg (packetState e x) msg).ctx =
      clearPending (clearPending (clearPending m.ctx .rxParamSetup) .dlChannel) .rxTimingSetup := by
    rw [← hx.1]; rfl
  refine ⟨beginMsg (packetState e x) msg, x.out.drop m.out.length ++ [.getStatus, .readBuffer, .setMode .sleep], ?_, ?_, ?_, rfl, hx.2.1,
    ?_, ?_, hlen, ?_, ?_⟩
  · rw [hb]; exact params_retire m.ctx
  · rw [hb]; exact clear3_same m.ctx
  · rw [hb]; exact clear3_adr m.ctx
  · show x.out ++ [.getStatus] ++ [.readBuffer] ++ [.setMode .sleep] = _
    rcases hp.out with h | h <;> rw [h] <;> simp
  · rcases hp.out with h | h <;> rw [h] <;> simp
  · rw [h]
    unfold deliver pushSessionUpdate
    simp only [Mac.emit]
    generalize (if msg.commands = [] then beginMsg (packetState e x) msg
      else processCommands cfg e (beginMsg (packetState e x) msg) msg.commands) = z
    rw [dataEnd_eq]
    cases msg.userData <;> rfl
  · rw [h]
    unfold deliver pushSessionUpdate
    simp only [Mac.emit]
    obtain ⟨c, o, hz⟩ := hy
    have hop : (if msg.commands = [] then beginMsg (packetState e x) msg
      else processCommands cfg e (beginMsg (packetState e x) msg) msg.commands).op = m.op := by rw [hz]; exact hx.2.2
    generalize (if msg.commands = [] then beginMsg (packetState e x) msg
      else processCommands cfg e (beginMsg (packetState e x) msg) msg.commands) = z at hop
    rw [dataEnd_eq]
    cases msg.userData with
    | none => simp [hop]
    | some q => obtain ⟨p, d⟩ := q; simp [hop]

end LDL
