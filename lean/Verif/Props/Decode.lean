import Verif.Props.Frame

/-!
# C06, C07: decoding received frames

`decode v11 (bs ++ tail) bs.length` is the decoder applied to the frame `bs` sitting at the start of a
larger receive buffer whose remaining content is `tail`.
-/

namespace LDL
open LDL.Stream LDL.Frame

theorem slice_append (bs tail : Bytes) (i n : Nat) (h : i + n ≤ bs.length) :
    slice (bs ++ tail) i n = slice bs i n := by
  simp only [slice]
  rw [List.drop_append_of_le_length (by omega), List.take_append_of_le_length (by simp; omega)]

theorem getFrameType_iff (v11 : Bool) (b : UInt8) (t : Nat) (ht : t = 1 ∨ t = 3 ∨ t = 5) :
    getFrameType v11 b.toNat = some t ↔ b.toNat = 32 * t := by
  have key : ∀ (v : Bool) (n : Fin 256) (t : Fin 6), (t.val = 1 ∨ t.val = 3 ∨ t.val = 5) →
      (getFrameType v n.val = some t.val ↔ n.val = 32 * t.val) := by decide +kernel
  exact key v11 ⟨b.toNat, b.toNat_lt⟩ ⟨t, by omega⟩ (by simpa using ht)

/-! ## C06 -/

/-- What it means that the decoder's output `f` reports the data frame `p` contained in `bs`: all fields
agree, options and payload are the reported regions of `bs`, and these regions lie inside the frame,
before the MIC, without overlap. -/
structure Reports (bs : Bytes) (f : Down) (p : Spec.DataFrame) : Prop where
  type : f.type = p.mtype
  devAddr : f.devAddr = p.devAddr
  adr : f.adr = p.adr
  adrAckReq : f.adrAckReq = p.adrAckReq
  ack : f.ack = p.ack
  pending : f.pending = p.fPending
  counter : f.counter = p.fcnt
  mic : f.mic = p.mic
  optsLen : f.optsLen = p.fopts.length
  opts : ∀ o, f.opts = some o → slice bs o f.optsLen = p.fopts ∧ o = 8 ∧ o + f.optsLen + 4 ≤ bs.length
  noOpts : f.opts = none ↔ p.fopts = []
  dataPresent : f.dataPresent = p.payload.isSome
  port : ∀ port d, p.payload = some (port, d) → f.port = port ∧ f.dataLen = d.length ∧
    (f.data = none ↔ d = [])
  data : ∀ o, f.data = some o → ∃ port, p.payload = some (port, slice bs o f.dataLen) ∧
    8 + f.optsLen < o ∧ o + f.dataLen + 4 = bs.length

/-- The restriction of the specification: options may not be combined with port 0. -/
def PortOk (p : Spec.DataFrame) : Prop := ¬ (p.fopts ≠ [] ∧ ∃ d, p.payload = some (0, d))

/-- The (wrong) case of `c06_overrun_is_accepted`: the declared options reach behind the end of a frame
that is otherwise long enough. -/
def OptsOverrun (bs : Bytes) : Prop := 12 ≤ bs.length ∧ bs.length < 8 + (bs.getD 5 0).toNat % 16

theorem ctrl_bits (c : UInt8) :
    (c.toNat &&& 0xf) = c.toNat % 16 ∧
    decide (c.toNat &&& 0x80 > 0) = decide (c.toNat / 128 % 2 = 1) ∧
    decide (c.toNat &&& 0x40 > 0) = decide (c.toNat / 64 % 2 = 1) ∧
    decide (c.toNat &&& 0x20 > 0) = decide (c.toNat / 32 % 2 = 1) ∧
    decide (c.toNat &&& 0x10 > 0) = decide (c.toNat / 16 % 2 = 1) := by
  have key : ∀ n : Fin 256, (n.val &&& 0xf) = n.val % 16 ∧
    decide (n.val &&& 0x80 > 0) = decide (n.val / 128 % 2 = 1) ∧
    decide (n.val &&& 0x40 > 0) = decide (n.val / 64 % 2 = 1) ∧
    decide (n.val &&& 0x20 > 0) = decide (n.val / 32 % 2 = 1) ∧
    decide (n.val &&& 0x10 > 0) = decide (n.val / 16 % 2 = 1) := by decide +kernel
  exact key ⟨c.toNat, c.toNat_lt⟩

theorem leValue1 (b : UInt8) : Spec.leValue [b] = b.toNat := by simp [Spec.leValue]

/-- Every list of at least eight bytes, taken apart. -/
theorem eight {bs : Bytes} (h : 8 ≤ bs.length) : ∃ b0 a0 a1 a2 a3 c n0 n1 rest,
    bs = b0 :: a0 :: a1 :: a2 :: a3 :: c :: n0 :: n1 :: rest := by
  match bs, h with
  | b0 :: a0 :: a1 :: a2 :: a3 :: c :: n0 :: n1 :: rest, _ =>
    exact ⟨b0, a0, a1, a2, a3, c, n0, n1, rest, rfl⟩

/-- The decoder on a data frame, in terms of list operations. -/
theorem decode_data_eq (v11 : Bool) (bs tail : Bytes) (h8 : bs.length ≤ 255) (t : Nat)
    (ht : t = 3 ∨ t = 5) (h0 : bs.head? = some (UInt8.ofNat (32 * t))) :
    decode v11 (bs ++ tail) bs.length =
      if bs.length < 8 then none
      else
        let p := afterOpts bs bs.length
        if p + 4 ≤ bs.length then
          let g := bodyOf bs bs.length p (hdrOf bs { type := t })
          if !(g.dataPresent && decide (g.optsLen > 0) && decide (g.port = 0)) then some g else none
        else none := by
  have hpos : 0 < bs.length := by
    cases bs with
    | nil => simp at h0
    | cons b bs => simp
  have hm : bs.length ≤ (bs ++ tail).length := by simp
  have htag : getFrameType v11 (Spec.leValue ((bs ++ tail).take 1)) = some t := by
    cases bs with
    | nil => simp at h0
    | cons b bs =>
      simp only [List.head?_cons, Option.some.injEq] at h0
      simp only [List.cons_append, List.take_succ_cons, List.take_zero, leValue1]
      rw [getFrameType_iff v11 b t (by omega), h0]
      rcases ht with h | h <;> subst h <;> rfl
  have hne : t ≠ JOIN_ACCEPT := by rcases ht with h | h <;> subst h <;> decide
  have hdt : t = DATA_UNCONFIRMED_DOWN ∨ t = DATA_CONFIRMED_DOWN := ht
  simp only [decode, decodeS_tag v11 _ _ hpos hm h8, htag, hne, hdt, if_true, if_false]
  by_cases hshort : bs.length < 8
  · rw [if_pos hshort]
    exact decodeData_short _ _ _ hm hshort hpos
  · rw [if_neg hshort]
    have hn : 8 ≤ bs.length := by omega
    have s5 : slice (bs ++ tail) 5 1 = slice bs 5 1 := slice_append _ _ _ _ (by omega)
    have hp : afterOpts (bs ++ tail) bs.length = afterOpts bs bs.length := by
      simp only [afterOpts, s5]
    obtain ⟨d1, d2⟩ := decodeData_header (bs ++ tail) bs.length { type := t } hm hn h8 _ hp.symm
    by_cases hp4 : afterOpts bs bs.length + 4 ≤ bs.length
    · rw [d1 hp4]
      have hh : hdrOf (bs ++ tail) { type := t } = hdrOf bs { type := t } := by
        simp only [hdrOf, s5, slice_append bs tail 1 4 (by omega), slice_append bs tail 6 2 (by omega)]
      have hb : bodyOf (bs ++ tail) bs.length (afterOpts bs bs.length) (hdrOf bs { type := t })
          = bodyOf bs bs.length (afterOpts bs bs.length) (hdrOf bs { type := t }) := by
        simp only [bodyOf]
        rw [slice_append bs tail (bs.length - 4) 4 (by omega)]
        split
        · rw [slice_append bs tail _ 1 (by omega)]
        · rfl
      simp only [hh, hb, hp4, if_true]
    · rw [(d2 (by omega)).1]
      simp only [hp4, if_false]

/-- **C06**, partial: a received data frame that is well formed (the specification's parser accepts it) is
decoded exactly: it is refused if it combines options with port 0 and otherwise reported field by field.
Together with `c06_malformed_is_refused_partial` this covers everything but the frames of
`c06_overrun_is_accepted`. -/
theorem c06_wellformed_is_reported_partial (v11 : Bool) (bs tail : Bytes) (h8 : bs.length ≤ 255)
    (p : Spec.DataFrame) (hp : Spec.parseData bs = some p) (ht : p.mtype = 3 ∨ p.mtype = 5) :
    (PortOk p → ∃ f, decode v11 (bs ++ tail) bs.length = some f ∧ Reports bs f p) ∧
    (¬ PortOk p → decode v11 (bs ++ tail) bs.length = none) := by
  have hn : 8 ≤ bs.length := by
    rcases Nat.lt_or_ge bs.length 8 with h | h
    · exfalso
      match bs, h with
      | [], _ | [_], _ | [_, _], _ | [_, _, _], _ | [_, _, _, _], _ | [_, _, _, _, _], _
      | [_, _, _, _, _, _], _ | [_, _, _, _, _, _, _], _ => simp [Spec.parseData] at hp
    · exact h
  obtain ⟨b0, a0, a1, a2, a3, c, n0, n1, rest, rfl⟩ := eight hn
  simp only [Spec.parseData] at hp
  split at hp
  swap
  · simp at hp
  rename_i hc
  obtain ⟨hb0, hk⟩ := hc
  injection hp with hp
  have hmt : p.mtype = b0.toNat / 32 := by rw [← hp]
  rw [hmt] at ht
  have hhead : (b0 :: a0 :: a1 :: a2 :: a3 :: c :: n0 :: n1 :: rest).head? =
      some (UInt8.ofNat (32 * (b0.toNat / 32))) := by
    simp only [List.head?_cons, Option.some.injEq]
    apply UInt8.toNat_inj.mp
    have := b0.toNat_lt
    simp only [UInt8.toNat_ofNat']; omega
  rw [decode_data_eq v11 _ tail h8 _ ht hhead]
  obtain ⟨q0, q1, q2, q3, q4⟩ := ctrl_bits c
  generalize hbs : b0 :: a0 :: a1 :: a2 :: a3 :: c :: n0 :: n1 :: rest = bs at *
  have s5 : slice bs 5 1 = [c] := by subst hbs; rfl
  have s1 : slice bs 1 4 = [a0, a1, a2, a3] := by subst hbs; rfl
  have s6 : slice bs 6 2 = [n0, n1] := by subst hbs; rfl
  have hlen : bs.length = 8 + rest.length := by subst hbs; simp; omega
  have hsl : ∀ i n, slice bs (8 + i) n = (rest.drop i).take n := by
    intro i n; subst hbs
    simp only [slice]
    rw [Nat.add_comm]
    rfl
  have hao : afterOpts bs bs.length = 8 + c.toNat % 16 := by
    simp only [afterOpts, s5, leValue1, q0]
    rw [if_pos (by omega)]
  rw [if_neg (by omega), hao]
  have hsl0 : ∀ n, slice bs 8 n = rest.take n := fun n => by simpa using hsl 0 n
  have hmic : slice bs (bs.length - 4) 4 = rest.drop (rest.length - 4) := by
    have : bs.length - 4 = 8 + (rest.length - 4) := by omega
    rw [this, hsl]
    exact List.take_of_length_le (by simp; omega)
  have hfit : 8 + c.toNat % 16 + 4 ≤ bs.length := by omega
  simp only [hfit, if_true]
  -- the middle part
  have hmid : ∀ port d, (rest.drop (c.toNat % 16)).take (rest.length - c.toNat % 16 - 4) = port :: d →
      8 + c.toNat % 16 + 4 < bs.length ∧ slice bs (8 + c.toNat % 16) 1 = [port] ∧
      d.length = bs.length - (8 + c.toNat % 16) - 5 ∧
      slice bs (8 + c.toNat % 16 + 1) (bs.length - (8 + c.toNat % 16) - 5) = d := by
    intro port d h
    have hl := congrArg List.length h
    simp only [List.length_take, List.length_drop, List.length_cons] at hl
    have hlt : 8 + c.toNat % 16 + 4 < bs.length := by omega
    have e1 : rest.length - c.toNat % 16 - 4 = (bs.length - (8 + c.toNat % 16) - 5) + 1 := by omega
    refine ⟨hlt, ?_, by omega, ?_⟩
    · rw [hsl]
      have := congrArg (List.take 1) h
      rw [List.take_take] at this
      simpa [show min 1 (rest.length - c.toNat % 16 - 4) = 1 by omega] using this
    · rw [Nat.add_assoc 8, hsl]
      have := congrArg (List.drop 1) h
      rw [List.drop_one, List.drop_one, List.tail_cons] at this
      rw [← this, ← List.drop_one, List.drop_take, List.drop_drop]
      congr 1; omega
  have hnil : (rest.drop (c.toNat % 16)).take (rest.length - c.toNat % 16 - 4) = [] →
      ¬ 8 + c.toNat % 16 + 4 < bs.length := by
    intro h
    have hl := congrArg List.length h
    simp only [List.length_take, List.length_drop, List.length_nil] at hl
    omega
  have hfl : (rest.take (c.toNat % 16)).length = c.toNat % 16 := by simp; omega
  generalize hM : (rest.drop (c.toNat % 16)).take (rest.length - c.toNat % 16 - 4) = M at *
  match M, hmid, hnil with
  | [], _, hnil =>
    have hno := hnil rfl
    simp only [bodyOf, hno, if_false, hdrOf, s5, s1, s6, leValue1, q0, q1, q2, q3, q4, hmic]
    subst hp
    refine ⟨fun _ => ⟨_, by simp; rfl, ?_⟩, fun h => ?_⟩
    · refine ⟨rfl, rfl, rfl, rfl, rfl, rfl, rfl, rfl, hfl.symm, ?_, ?_, rfl, ?_, ?_⟩
      · intro o ho
        simp only at ho
        split at ho <;> simp at ho
        subst ho
        refine ⟨hsl0 _, by omega, ?_⟩
        simp only; omega
      · simp only
        constructor
        · intro h; split at h
          · simp at h
          · apply List.eq_nil_of_length_eq_zero; omega
        · intro h; rw [h] at hfl; simp only [List.length_nil] at hfl; rw [← hfl]; rfl
      · intro port d h; simp at h
      · intro o ho; simp at ho
    · exfalso; apply h; rintro ⟨_, d, hd⟩; simp at hd
  | port :: d, hmid, _ =>
    obtain ⟨hlt, hport, hdl, hdata⟩ := hmid port d rfl
    simp only [bodyOf, hlt, if_true, hdrOf, s5, s1, s6, leValue1, q0, q1, q2, q3, q4, hmic, hport]
    have hpo : PortOk p ↔ ¬ (c.toNat % 16 > 0 ∧ port.toNat = 0) := by
      subst hp
      simp only [PortOk, Option.some.injEq, Prod.mk.injEq, exists_eq_right']
      rw [not_iff_not, Ne, ← List.length_eq_zero_iff, hfl]
      omega
    subst hp
    refine ⟨fun h => ⟨_, if_pos (by
        rw [hpo] at h
        by_cases h1 : c.toNat % 16 > 0 <;> by_cases h2 : port.toNat = 0 <;> simp_all), ?_⟩,
        fun h => ?_⟩
    · refine ⟨rfl, rfl, rfl, rfl, rfl, rfl, rfl, rfl, hfl.symm, ?_, ?_, rfl, ?_, ?_⟩
      · intro o ho
        simp only at ho
        split at ho <;> simp at ho
        subst ho
        refine ⟨hsl0 _, by omega, ?_⟩
        simp only; omega
      · simp only
        constructor
        · intro h; split at h
          · simp at h
          · apply List.eq_nil_of_length_eq_zero; omega
        · intro h; rw [h] at hfl; simp only [List.length_nil] at hfl; rw [← hfl]; rfl
      · intro port' d' h'
        simp only [Option.some.injEq, Prod.mk.injEq] at h'
        obtain ⟨rfl, rfl⟩ := h'
        refine ⟨rfl, hdl.symm, ?_⟩
        simp only
        rw [← List.length_eq_zero_iff, hdl]
        constructor
        · intro h; split at h
          · assumption
          · simp at h
        · intro h; rw [if_pos h]
      · intro o ho
        simp only at ho
        split at ho
        · simp at ho
        · simp only [Option.some.injEq] at ho
          subst ho
          refine ⟨port.toNat, ?_, ?_, ?_⟩
          · simp only [hdata]
          · simp only; omega
          · simp only; omega
    · rw [hpo] at h
      simp only [not_not] at h
      simp [h.1, h.2]

/-- **C06**, partial: a received data frame that the specification's parser does not accept is refused,
except in the case `OptsOverrun`. -/
theorem c06_malformed_is_refused_partial (v11 : Bool) (bs tail : Bytes) (h8 : bs.length ≤ 255)
    (t : Nat) (ht : t = 3 ∨ t = 5) (h0 : bs.head? = some (UInt8.ofNat (32 * t)))
    (hp : Spec.parseData bs = none) (hover : ¬ OptsOverrun bs) :
    decode v11 (bs ++ tail) bs.length = none := by
  rw [decode_data_eq v11 bs tail h8 t ht h0]
  split
  · rfl
  rename_i hn
  obtain ⟨b0, a0, a1, a2, a3, c, n0, n1, rest, rfl⟩ := eight (by omega : 8 ≤ bs.length)
  obtain ⟨q0, _⟩ := ctrl_bits c
  have hs5 : slice (b0 :: a0 :: a1 :: a2 :: a3 :: c :: n0 :: n1 :: rest) 5 1 = [c] := rfl
  have hb0 : b0.toNat % 32 = 0 := by
    simp only [List.head?_cons, Option.some.injEq] at h0
    subst h0
    rcases ht with h | h <;> subst h <;> rfl
  simp only [Spec.parseData, hb0, true_and] at hp
  split at hp
  · simp at hp
  rename_i hk
  simp only [OptsOverrun, List.getD_cons_succ, List.getD_cons_zero, List.length_cons] at hover
  simp only [afterOpts, hs5, leValue1, q0, List.length_cons]
  have h1 : 8 + c.toNat % 16 ≤ rest.length + 1 + 1 + 1 + 1 + 1 + 1 + 1 + 1 ∨
      rest.length + 8 < 12 := by omega
  by_cases hle : 8 + c.toNat % 16 ≤ rest.length + 1 + 1 + 1 + 1 + 1 + 1 + 1 + 1
  · simp only [hle, if_true]
    rw [if_neg (by omega)]
  · simp only [hle, if_false]
    rw [if_neg (by omega)]

/-- **C06**, negation: the decoder accepts a data frame whose declared options (15 bytes) reach behind
the end of the 12-byte frame, so that the options reported are the MIC and whatever follows the frame in
the receive buffer.  The specification's parser refuses it. -/
theorem c06_overrun_is_accepted :
    ∃ (bs : Bytes) (f : Down), bs.length = 12 ∧ OptsOverrun bs ∧ Spec.parseData bs = none ∧
      (∀ v11 tail, decode v11 (bs ++ tail) bs.length = some f) ∧
      f.opts = some 8 ∧ f.optsLen = 15 ∧ bs.length < 8 + f.optsLen := by
  refine ⟨[0x60, 1, 2, 3, 4, 0x0f, 0, 0, 5, 6, 7, 8],
    { type := 3, devAddr := 0x04030201, optsLen := 15, opts := some 8, mic := 0x08070605 }, rfl,
    ⟨by decide, by decide⟩, by decide, ?_, ?_⟩
  · intro v11 tail
    rw [decode_data_eq v11 _ tail (by decide) 3 (Or.inl rfl) (by decide)]
    rfl
  · decide

/-- **C06** (exact extent of the deviation): in the overrun case the frame is accepted exactly when it has no
room for a port or the byte taken for the port is not zero. -/
theorem c06_overrun_accepted_iff (v11 : Bool) (bs tail : Bytes) (h8 : bs.length ≤ 255)
    (t : Nat) (ht : t = 3 ∨ t = 5) (h0 : bs.head? = some (UInt8.ofNat (32 * t)))
    (hover : OptsOverrun bs) :
    (decode v11 (bs ++ tail) bs.length).isSome ↔ bs.length = 12 ∨ bs.getD 8 0 ≠ 0 := by
  rw [decode_data_eq v11 bs tail h8 t ht h0]
  obtain ⟨ho1, ho2⟩ := hover
  obtain ⟨b0, a0, a1, a2, a3, c, n0, n1, rest, rfl⟩ := eight (by omega : 8 ≤ bs.length)
  obtain ⟨q0, _⟩ := ctrl_bits c
  match rest, ho1, ho2 with
  | e :: rest, ho1, ho2 =>
  simp only [List.getD_cons_succ, List.getD_cons_zero, List.length_cons] at ho1 ho2
  have hs5 : slice (b0 :: a0 :: a1 :: a2 :: a3 :: c :: n0 :: n1 :: e :: rest) 5 1 = [c] := rfl
  have hs8 : slice (b0 :: a0 :: a1 :: a2 :: a3 :: c :: n0 :: n1 :: e :: rest) 8 1 = [e] := rfl
  have e0 : e.toNat = 0 ↔ e = 0 := by
    constructor
    · intro h; exact UInt8.toNat_inj.mp h
    · rintro rfl; rfl
  simp only [afterOpts, hs5, leValue1, q0, List.length_cons, bodyOf, hdrOf,
    List.getD_cons_succ, List.getD_cons_zero]
  have g1 : ¬ 8 + c.toNat % 16 ≤ rest.length + 1 + 1 + 1 + 1 + 1 + 1 + 1 + 1 + 1 := by omega
  have g2 : ¬ rest.length + 1 + 1 + 1 + 1 + 1 + 1 + 1 + 1 + 1 < 8 := by omega
  have g3 : 8 + 4 ≤ rest.length + 1 + 1 + 1 + 1 + 1 + 1 + 1 + 1 + 1 := by omega
  simp only [g1, g2, g3, if_false, if_true]
  by_cases h12 : 8 + 4 < rest.length + 1 + 1 + 1 + 1 + 1 + 1 + 1 + 1 + 1
  · have h13 : ¬ rest.length + 1 + 1 + 1 + 1 + 1 + 1 + 1 + 1 + 1 = 12 := by omega
    have h14 : 0 < c.toNat % 16 := by omega
    simp only [h12, if_true, hs8, leValue1, h13, false_or]
    by_cases he : e = 0
    · have := e0.mpr he
      simp [h14, this, he]
    · have : e.toNat ≠ 0 := fun h => he (e0.mp h)
      simp [this, he]
  · have h13 : rest.length + 1 + 1 + 1 + 1 + 1 + 1 + 1 + 1 + 1 = 12 := by omega
    simp [h12, h13]

/-- Non-vacuity: a well formed downlink with options and payload, its parse, and its decoding. -/
example : ∃ p f, Spec.parseData [0xa0, 1, 2, 3, 4, 0x22, 9, 0, 6, 6, 42, 0xca, 0xfe, 1, 0, 0, 0] = some p ∧
    p.mtype = 5 ∧ p.payload = some (42, [0xca, 0xfe]) ∧ p.fopts = [6, 6] ∧
    decode false ([0xa0, 1, 2, 3, 4, 0x22, 9, 0, 6, 6, 42, 0xca, 0xfe, 1, 0, 0, 0] ++ [7, 7]) 17 = some f ∧
    f.data = some 11 ∧ f.dataLen = 2 ∧ f.ack = true := by
  refine ⟨_, _, rfl, ?_, ?_, ?_, rfl, ?_⟩ <;> decide

/-! ## C07 -/

/-- What the decoder must report for the join accept `ja`. -/
def downOfJoinAccept (ja : Spec.JoinAccept) : Down :=
  { type := 1, joinNonce := ja.joinNonce, netID := ja.netID, devAddr := ja.devAddr,
    optNeg := ja.optNeg, rx1DataRateOffset := ja.rx1DROffset, rx2DataRate := ja.rx2DataRate,
    rxDelay := if ja.rxDelay = 0 then 1 else ja.rxDelay,
    cfList := if ja.cfList.isSome then some 13 else none,
    cfListLen := if ja.cfList.isSome then 16 else 0,
    mic := ja.mic }

theorem dl_bits (o : Bool) (a b : Nat) (ha : a < 8) (hb : b < 16) :
    decide ((128 * o.toNat + 16 * a + b) &&& 0x80 ≠ 0) = o ∧
    ((128 * o.toNat + 16 * a + b) >>> 4) &&& 7 = a ∧ (128 * o.toNat + 16 * a + b) &&& 15 = b := by
  have key : ∀ (o : Bool) (a : Fin 8) (b : Fin 16),
      decide ((128 * o.toNat + 16 * a.val + b.val) &&& 0x80 ≠ 0) = o ∧
      ((128 * o.toNat + 16 * a.val + b.val) >>> 4) &&& 7 = a.val ∧
      (128 * o.toNat + 16 * a.val + b.val) &&& 15 = b.val := by decide +kernel
  exact key o ⟨a, ha⟩ ⟨b, hb⟩

theorem decode_ja_eq (v11 : Bool) (bs tail : Bytes) (h8 : bs.length ≤ 255)
    (h0 : bs.head? = some 0x20) :
    decode v11 (bs ++ tail) bs.length =
      if bs.length = 17 ∨ bs.length = 33 then some (jaOf bs bs.length { type := 1 }) else none := by
  have hpos : 0 < bs.length := by
    cases bs with
    | nil => simp at h0
    | cons b bs => simp
  have hm : bs.length ≤ (bs ++ tail).length := by simp
  have htag : getFrameType v11 (Spec.leValue ((bs ++ tail).take 1)) = some 1 := by
    cases bs with
    | nil => simp at h0
    | cons b bs =>
      simp only [List.head?_cons, Option.some.injEq] at h0
      simp only [List.cons_append, List.take_succ_cons, List.take_zero, leValue1]
      rw [getFrameType_iff v11 b 1 (by omega), h0]; rfl
  simp only [decode, decodeS_tag v11 _ _ hpos hm h8, htag]
  rw [if_pos (show (1 : Nat) = JOIN_ACCEPT from rfl)]
  by_cases hn : bs.length < 13
  · rw [decodeJoinAccept_short _ _ _ hn hpos, if_neg (by omega)]
  · rw [(decodeJoinAccept_eq _ _ _ hm (by omega) h8).1]
    split
    · rename_i hl
      simp only [jaOf, slice_append bs tail 1 3 (by omega), slice_append bs tail 4 3 (by omega),
        slice_append bs tail 7 4 (by omega), slice_append bs tail 11 1 (by omega),
        slice_append bs tail 12 1 (by omega), slice_append bs tail (bs.length - 4) 4 (by omega)]
    · rfl

theorem decodeData_type {s : Stream} {g f : Down} (h : (decodeData s g).1 = some f) :
    f.type = g.type := by
  simp only [decodeData] at h
  split at h <;>
    (rw [Option.ite_none_right_eq_some] at h; obtain ⟨_, h⟩ := h; injection h with h; rw [← h])

/-- The decoder accepts nothing but join accepts and data downlinks. -/
theorem decode_other (v11 : Bool) (bs tail : Bytes) (h8 : bs.length ≤ 255)
    (h1 : bs.head? ≠ some 0x20) (h3 : bs.head? ≠ some 0x60) (h5 : bs.head? ≠ some 0xa0) :
    decode v11 (bs ++ tail) bs.length = none := by
  have hm : bs.length ≤ (bs ++ tail).length := by simp
  match bs with
  | [] => rfl
  | b :: bs =>
    simp only [List.head?_cons, ne_eq, Option.some.injEq] at h1 h3 h5
    have hb : Spec.leValue (((b :: bs) ++ tail).take 1) = b.toNat := by simp [Spec.leValue]
    simp only [decode, decodeS_tag v11 _ _ (by simp) hm h8, hb]
    have k : ∀ t, (t = 1 ∨ t = 3 ∨ t = 5) → getFrameType v11 b.toNat ≠ some t := by
      intro t ht h
      rw [getFrameType_iff v11 b t ht] at h
      rcases ht with rfl | rfl | rfl
      · exact h1 (UInt8.toNat_inj.mp h)
      · exact h3 (UInt8.toNat_inj.mp h)
      · exact h5 (UInt8.toNat_inj.mp h)
    have k1 := k 1 (by omega); have k3 := k 3 (by omega); have k5 := k 5 (by omega)
    split
    · rfl
    · rename_i ty hty
      rw [hty] at k1 k3 k5
      simp only [ne_eq, Option.some.injEq] at k1 k3 k5
      simp [JOIN_ACCEPT, DATA_UNCONFIRMED_DOWN, DATA_CONFIRMED_DOWN, k1, k3, k5]

/-- **C06** (memory safety): decoding never reads outside the first `len` bytes: no access is out of
bounds of the buffer, and the result does not depend on what follows the frame. -/
theorem c06_memory_safe (v11 : Bool) (bs tail tail' : Bytes) (h8 : bs.length ≤ 255) :
    (decodeS v11 (bs ++ tail) bs.length).2.fault = false ∧
    (decodeS v11 bs bs.length).2.fault = false ∧
    decode v11 (bs ++ tail) bs.length = decode v11 (bs ++ tail') bs.length := by
  have key : ∀ tail, (decodeS v11 (bs ++ tail) bs.length).2.fault = false := by
    intro tail
    have hm : bs.length ≤ (bs ++ tail).length := by simp
    rcases Nat.eq_zero_or_pos bs.length with h0 | h0
    · have : bs = [] := List.eq_nil_of_length_eq_zero h0
      subst this
      rfl
    · rw [decodeS_tag v11 _ _ h0 hm h8]
      have hs : Safe (afterTag (bs ++ tail) bs.length) := ⟨h0, rfl, hm, h8⟩
      split
      · rfl
      · split
        · exact (decodeJoinAccept_safe hs _).fault
        · split
          · exact (decodeData_safe hs _).fault
          · rfl
  refine ⟨key tail, ?_, ?_⟩
  · have := key []
    rwa [List.append_nil] at this
  · by_cases h1 : bs.head? = some 0x20
    · rw [decode_ja_eq v11 bs tail h8 h1, decode_ja_eq v11 bs tail' h8 h1]
    by_cases h3 : bs.head? = some 0x60
    · rw [decode_data_eq v11 bs tail h8 3 (by omega) h3, decode_data_eq v11 bs tail' h8 3 (by omega) h3]
    by_cases h5 : bs.head? = some 0xa0
    · rw [decode_data_eq v11 bs tail h8 5 (by omega) h5, decode_data_eq v11 bs tail' h8 5 (by omega) h5]
    rw [decode_other v11 bs tail h8 h1 h3 h5, decode_other v11 bs tail' h8 h1 h3 h5]

/-- **C07** (acceptance): a byte string starting with 0x20 is decoded as a join accept exactly when it has
17 or 33 bytes. -/
theorem c07_accepts_iff (v11 : Bool) (bs tail : Bytes) (h8 : bs.length ≤ 255)
    (h0 : bs.head? = some 0x20) :
    (decode v11 (bs ++ tail) bs.length).isSome ↔ bs.length = 17 ∨ bs.length = 33 := by
  rw [decode_ja_eq v11 bs tail h8 h0]
  split <;> simp_all

/-- **C07** (fields): every join accept of the specification is decoded to exactly its fields, RxDelay 0
being reported as 1; the CFList region is bytes 13..28. -/
theorem c07_fields (v11 : Bool) (ja : Spec.JoinAccept) (hw : ja.WF) (tail : Bytes) :
    decode v11 (ja.encode ++ tail) ja.encode.length = some (downOfJoinAccept ja) ∧
    (∀ l, ja.cfList = some l → slice (ja.encode ++ tail) 13 16 = l) := by
  obtain ⟨w1, w2, w3, w4, w5, w6, w7, w8⟩ := hw
  obtain ⟨jn, nid, da, opt, o, r2, rd, cf, mic⟩ := ja
  simp only at *
  have ejn : Spec.leValue (Spec.le 3 jn) = jn := by
    rw [leValue_le, Nat.mod_eq_of_lt (by simpa using w1)]
  have enid : Spec.leValue (Spec.le 3 nid) = nid := by
    rw [leValue_le, Nat.mod_eq_of_lt (by simpa using w2)]
  have eda : Spec.leValue (Spec.le 4 da) = da := by
    rw [leValue_le, Nat.mod_eq_of_lt (by simpa using w3)]
  have emic : Spec.leValue (Spec.le 4 mic) = mic := by
    rw [leValue_le, Nat.mod_eq_of_lt (by simpa using w8)]
  obtain ⟨d1, d2, d3⟩ := dl_bits opt o r2 w4 w5
  have hdl : (UInt8.ofNat (128 * opt.toNat + 16 * o + r2)).toNat = 128 * opt.toNat + 16 * o + r2 := by
    have := opt.toNat_le
    simp only [UInt8.toNat_ofNat']; omega
  have hrd : (UInt8.ofNat rd).toNat = rd := by simp only [UInt8.toNat_ofNat']; omega
  have hshape : Spec.JoinAccept.encode ⟨jn, nid, da, opt, o, r2, rd, cf, mic⟩ =
      0x20 :: (Spec.le 3 jn ++ (Spec.le 3 nid ++ (Spec.le 4 da ++
        ([UInt8.ofNat (128 * opt.toNat + 16 * o + r2)] ++ ([UInt8.ofNat rd] ++ (cf.getD [] ++
          Spec.le 4 mic)))))) := by
    simp [Spec.JoinAccept.encode, Spec.JoinAccept.body, Spec.mhdr, Spec.JoinAccept.dlSettings]
  rw [hshape]
  have hcl : (cf.getD []).length = if cf.isSome then 16 else 0 := by
    cases cf with
    | none => rfl
    | some l => simpa using w7 l rfl
  have hlen : (0x20 :: (Spec.le 3 jn ++ (Spec.le 3 nid ++ (Spec.le 4 da ++
        ([UInt8.ofNat (128 * opt.toNat + 16 * o + r2)] ++ ([UInt8.ofNat rd] ++ (cf.getD [] ++
          Spec.le 4 mic))))))).length = 17 + (cf.getD []).length := by
    simp [le_length]; omega
  generalize hdlb : UInt8.ofNat (128 * opt.toNat + 16 * o + r2) = dlb at *
  generalize hrdb : UInt8.ofNat rd = rdb at *
  obtain ⟨j0, j1, j2, hj⟩ : ∃ a b c, Spec.le 3 jn = [a, b, c] := ⟨_, _, _, rfl⟩
  obtain ⟨i0, i1, i2, hi⟩ : ∃ a b c, Spec.le 3 nid = [a, b, c] := ⟨_, _, _, rfl⟩
  obtain ⟨a0, a1, a2, a3, ha⟩ : ∃ a b c d, Spec.le 4 da = [a, b, c, d] := ⟨_, _, _, _, rfl⟩
  rw [hj] at ejn; rw [hi] at enid; rw [ha] at eda
  rw [hj, hi, ha] at hlen ⊢
  have hl4 := le_length 4 mic
  constructor
  · rw [decode_ja_eq v11 _ tail (by rw [hlen, hcl]; split <;> omega) rfl]
    rw [if_pos (by rw [hlen, hcl]; split <;> omega)]
    have hmic : slice (0x20 :: ([j0, j1, j2] ++ ([i0, i1, i2] ++ ([a0, a1, a2, a3] ++ ([dlb] ++ ([rdb] ++
        (cf.getD [] ++ Spec.le 4 mic))))))) ((0x20 :: ([j0, j1, j2] ++ ([i0, i1, i2] ++
        ([a0, a1, a2, a3] ++ ([dlb] ++ ([rdb] ++
        (cf.getD [] ++ Spec.le 4 mic))))))).length - 4) 4 = Spec.le 4 mic := by
      rw [hlen]
      have : 17 + (cf.getD []).length - 4 = (cf.getD []).length + 13 := by omega
      rw [this]
      simp [slice]
      exact List.take_of_length_le (by omega)
    congr 1
    simp only [jaOf, hmic]
    rw [hlen]
    have t1 : slice (0x20 :: ([j0, j1, j2] ++ ([i0, i1, i2] ++ ([a0, a1, a2, a3] ++ ([dlb] ++ ([rdb] ++
        (cf.getD [] ++ Spec.le 4 mic))))))) 1 3 = [j0, j1, j2] := rfl
    have t2 : slice (0x20 :: ([j0, j1, j2] ++ ([i0, i1, i2] ++ ([a0, a1, a2, a3] ++ ([dlb] ++ ([rdb] ++
        (cf.getD [] ++ Spec.le 4 mic))))))) 4 3 = [i0, i1, i2] := rfl
    have t3 : slice (0x20 :: ([j0, j1, j2] ++ ([i0, i1, i2] ++ ([a0, a1, a2, a3] ++ ([dlb] ++ ([rdb] ++
        (cf.getD [] ++ Spec.le 4 mic))))))) 7 4 = [a0, a1, a2, a3] := rfl
    have t4 : slice (0x20 :: ([j0, j1, j2] ++ ([i0, i1, i2] ++ ([a0, a1, a2, a3] ++ ([dlb] ++ ([rdb] ++
        (cf.getD [] ++ Spec.le 4 mic))))))) 11 1 = [dlb] := rfl
    have t5 : slice (0x20 :: ([j0, j1, j2] ++ ([i0, i1, i2] ++ ([a0, a1, a2, a3] ++ ([dlb] ++ ([rdb] ++
        (cf.getD [] ++ Spec.le 4 mic))))))) 12 1 = [rdb] := rfl
    rw [t1, t2, t3, t4, t5, leValue1, leValue1, ejn, enid, eda, emic, hdl, hrd, d1, d2, d3, hcl]
    cases cf <;> simp [downOfJoinAccept]
  · intro l hl
    have := w7 l hl
    subst hl
    simp only [Option.getD_some, slice]
    show (List.drop 0 (l ++ Spec.le 4 mic ++ tail)).take 16 = l
    rw [List.drop_zero, List.append_assoc, List.take_left' this]

/-- **C07** (nothing else): every byte string decoded as a join accept is the encoding of one. -/
theorem c07_only_join_accepts (v11 : Bool) (bs tail : Bytes) (h8 : bs.length ≤ 255) (f : Down)
    (h : decode v11 (bs ++ tail) bs.length = some f) (ht : f.type = 1) :
    ∃ ja : Spec.JoinAccept, ja.WF ∧ bs = ja.encode ∧ f = downOfJoinAccept ja := by
  have h0 : bs.head? = some 0x20 := by
    have hpos : 0 < bs.length := by
      rcases Nat.eq_zero_or_pos bs.length with h0 | h0
      · have : bs = [] := List.eq_nil_of_length_eq_zero h0
        subst this
        exact absurd h (by simp [decode, decodeS, getU8, Stream.read, initReadOnly])
      · exact h0
    have hm : bs.length ≤ (bs ++ tail).length := by simp
    match bs, hpos with
    | b :: bs, hpos =>
      simp only [decode, decodeS_tag v11 _ _ hpos hm h8] at h
      have hb : Spec.leValue (((b :: bs) ++ tail).take 1) = b.toNat := by simp [Spec.leValue]
      rw [hb] at h
      have ht2 : getFrameType v11 b.toNat = some 1 := by
        split at h
        · simp at h
        rename_i ty hty
        split at h
        · rename_i h1; rw [hty, h1]; rfl
        · split at h
          · rename_i hne _
            exfalso
            -- the data decoder keeps the type
            have : f.type = ty := decodeData_type h
            exact hne (by rw [← this, ht]; rfl)
          · simp at h
      rw [getFrameType_iff v11 b 1 (by omega)] at ht2
      simp only [List.head?_cons, Option.some.injEq]
      exact UInt8.toNat_inj.mp ht2
  have hacc := (c07_accepts_iff v11 bs tail h8 h0).mp (by rw [h]; rfl)
  -- rebuild the join accept from the fields
  let ja : Spec.JoinAccept :=
    { joinNonce := Spec.leValue (slice bs 1 3), netID := Spec.leValue (slice bs 4 3),
      devAddr := Spec.leValue (slice bs 7 4),
      optNeg := decide ((bs.getD 11 0).toNat / 128 = 1),
      rx1DROffset := (bs.getD 11 0).toNat / 16 % 8, rx2DataRate := (bs.getD 11 0).toNat % 16,
      rxDelay := (bs.getD 12 0).toNat,
      cfList := if bs.length = 33 then some (slice bs 13 16) else none,
      mic := Spec.leValue (slice bs (bs.length - 4) 4) }
  have hl : ∀ i n, i + n ≤ bs.length → (slice bs i n).length = n := by
    intro i n hin; simp [slice]; omega
  have hlv : ∀ i n, i + n ≤ bs.length → Spec.leValue (slice bs i n) < 256 ^ n := by
    intro i n hin
    have := leValue_lt (slice bs i n)
    rwa [hl i n hin] at this
  have hle : ∀ i n, i + n ≤ bs.length → Spec.le n (Spec.leValue (slice bs i n)) = slice bs i n := by
    intro i n hin
    have := le_leValue (slice bs i n)
    rwa [hl i n hin] at this
  have hwf : ja.WF := by
    refine ⟨?_, ?_, ?_, ?_, ?_, (bs.getD 12 0).toNat_lt, ?_, ?_⟩
    · simpa using hlv 1 3 (by omega)
    · simpa using hlv 4 3 (by omega)
    · simpa using hlv 7 4 (by omega)
    · exact Nat.mod_lt _ (by decide)
    · exact Nat.mod_lt _ (by decide)
    · intro l hcl
      simp only [ja] at hcl
      split at hcl
      · injection hcl with hcl; subst hcl; exact hl 13 16 (by omega)
      · simp at hcl
    · simpa using hlv (bs.length - 4) 4 (by omega)
  have henc : bs = ja.encode := by
    have hdl : ja.dlSettings = (bs.getD 11 0).toNat := by
      have h256 := (bs.getD 11 0).toNat_lt
      have key : ∀ n : Fin 256, 128 * (decide (n.val / 128 = 1)).toNat + 16 * (n.val / 16 % 8) + n.val % 16
          = n.val := by decide +kernel
      exact key ⟨_, h256⟩
    have hof : ∀ b : UInt8, UInt8.ofNat b.toNat = b := fun b => by
      apply UInt8.toNat_inj.mp; simp
    simp only [Spec.JoinAccept.encode, Spec.JoinAccept.body, hdl]
    simp only [ja, hof, hle 1 3 (by omega), hle 4 3 (by omega), hle 7 4 (by omega),
      hle (bs.length - 4) 4 (by omega)]
    rcases hacc with hacc | hacc
    · match bs, hacc, h0 with
      | [b0, b1, b2, b3, b4, b5, b6, b7, b8, b9, b10, b11, b12, b13, b14, b15, b16], _, h0 =>
        simp only [List.head?_cons, Option.some.injEq] at h0
        subst h0
        rfl
    · have h33 : bs = bs.take 13 ++ (slice bs 13 16 ++ slice bs 29 4) := by
        have e1 : slice bs 29 4 = bs.drop 29 := List.take_of_length_le (by simp; omega)
        have e2 : bs.drop 29 = (bs.drop 13).drop 16 := by simp
        rw [e1, e2]
        simp only [slice]
        rw [List.take_append_drop, List.take_append_drop]
      have e29 : bs.length - 4 = 29 := by omega
      rw [e29]
      simp only [hacc, if_true, Option.getD_some]
      match bs, hacc, h0, h33 with
      | b0 :: b1 :: b2 :: b3 :: b4 :: b5 :: b6 :: b7 :: b8 :: b9 :: b10 :: b11 :: b12 :: rest, _, h0, h33 =>
        simp only [List.head?_cons, Option.some.injEq] at h0
        subst h0
        rw [List.append_assoc]
        exact h33
  refine ⟨ja, hwf, henc, ?_⟩
  have := (c07_fields v11 ja hwf tail).1
  rw [← henc, h] at this
  injection this

/-- Non-vacuity: a 33-byte join accept with RxDelay 0. -/
example : ∃ ja : Spec.JoinAccept, ja.WF ∧ ja.encode.length = 33 ∧ ja.rxDelay = 0 ∧
    (downOfJoinAccept ja).rxDelay = 1 := by
  refine ⟨⟨0x123456, 0x13, 0x26010203, true, 2, 3, 0, some (List.replicate 16 7), 99⟩, ?_, by decide,
    rfl, rfl⟩
  refine ⟨by decide, by decide, by decide, by decide, by decide, by decide, ?_, by decide⟩
  intro l h; injection h with h; subst h; rfl

end LDL
