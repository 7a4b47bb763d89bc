import Verif.Spec.TraceLine

/-!
# Lines of debug output of the mbed wrapper (C99)
-/

namespace LDL
open Spec.Trace
open Trace (Line SIZE digit formatX part begin_ end_)

namespace TraceLine

/-- The buffer holds `text`, terminated. -/
def Holds (l : Line) (text : Bytes) : Prop :=
  l.pos = text.length ∧ l.buffer.length = 1024 ∧ ∃ rest, l.buffer = text ++ 0 :: rest

theorem sub_small {pos : Nat} (h : pos ≤ 1024) : sub32 SIZE pos = 1024 - pos := by
  unfold sub32 SIZE; omega

theorem part_holds {l : Line} {t : Bytes} (h : Holds l t) (u : Bytes) (hu : t.length + u.length ≤ 1023) :
    ∃ l', part l u = some l' ∧ Holds l' (t ++ u) := by
  obtain ⟨hp, hl, rest, hb⟩ := h
  have hr : rest.length = 1023 - t.length := by
    have := congrArg List.length hb
    simp only [List.length_append, List.length_cons] at this
    omega
  have hn : sub32 SIZE l.pos = 1024 - t.length := by rw [sub_small (by omega), hp]
  have htake : u.take (1024 - t.length - 1) = u := List.take_of_length_le (by omega)
  have hs : Trace.snprintf l.buffer l.pos (sub32 SIZE l.pos) u = some (t ++ u ++ 0 :: (0 :: rest).drop (u.length + 1)) := by
    unfold Trace.snprintf
    rw [hn, if_neg (by omega), htake]
    simp only [List.length_append, List.length_cons, List.length_nil]
    rw [if_pos (by omega)]
    unfold memcpyAt
    rw [hb, hp, List.take_left, List.length_append, List.drop_append, List.drop_eq_nil_of_le (by simp)]
    simp [Nat.add_sub_cancel_left]
  refine ⟨⟨t ++ u ++ 0 :: (0 :: rest).drop (u.length + 1), u32 (l.pos + u.length)⟩, ?_, ?_, ?_, _, rfl⟩
  · unfold part
    rw [hs]; rfl
  · show u32 (l.pos + u.length) = _
    rw [List.length_append, hp]
    unfold u32; omega
  · simp only [List.length_append, List.length_cons, List.length_drop]
    omega

/-- The texts an item prints one after the other. -/
def texts : Item → List Bytes
  | .part text => [text]
  | .hex data => data.map fun b => formatX (b.toNat >>> 4) ++ formatX b.toNat
  | .bits data => data.map fun b => [7, 6, 5, 4, 3, 2, 1, 0].map fun i => if b.toNat.testBit i then 49 else 48

def prints (l : Line) : List Bytes → Option Line
  | [] => some l
  | t :: rest => (part l t).bind fun l => prints l rest

theorem prints_append (l : Line) (a b : List Bytes) : prints l (a ++ b) = (prints l a).bind fun l => prints l b := by
  induction a generalizing l with
  | nil => rfl
  | cons t rest ih =>
    show (part l t).bind _ = ((part l t).bind _).bind _
    cases part l t with
    | none => rfl
    | some l' => exact ih l'

theorem bit_digits : ∀ b : UInt8,
    [digit ((b.toNat >>> 7) &&& 1), digit ((b.toNat >>> 6) &&& 1), digit ((b.toNat >>> 5) &&& 1),
      digit ((b.toNat >>> 4) &&& 1), digit ((b.toNat >>> 3) &&& 1), digit ((b.toNat >>> 2) &&& 1),
      digit ((b.toNat >>> 1) &&& 1), digit (b.toNat &&& 1)] =
    [7, 6, 5, 4, 3, 2, 1, 0].map fun i => if b.toNat.testBit i then (49 : UInt8) else 48 := by
  have h : ∀ n : Fin 256,
      [digit ((n.val >>> 7) &&& 1), digit ((n.val >>> 6) &&& 1), digit ((n.val >>> 5) &&& 1),
        digit ((n.val >>> 4) &&& 1), digit ((n.val >>> 3) &&& 1), digit ((n.val >>> 2) &&& 1),
        digit ((n.val >>> 1) &&& 1), digit (n.val &&& 1)] =
      [7, 6, 5, 4, 3, 2, 1, 0].map fun i => if n.val.testBit i then (49 : UInt8) else 48 := by decide +kernel
  exact fun b => h ⟨b.toNat, b.toNat_lt⟩

theorem run_prints (l : Line) (i : Item) : i.run l = prints l (texts i) := by
  cases i with
  | part text =>
    show part l text = (part l text).bind _
    cases part l text <;> rfl
  | hex data =>
    show Trace.hex l data = prints l (data.map _)
    induction data generalizing l with
    | nil => rfl
    | cons b rest ih =>
      show (part l _).bind _ = (part l _).bind _
      congr 1
      funext l'
      exact ih l'
  | bits data =>
    show Trace.bitstring l data = prints l (data.map _)
    induction data generalizing l with
    | nil => rfl
    | cons b rest ih =>
      show (part l _).bind _ = (part l _).bind _
      rw [bit_digits]
      congr 1
      funext l'
      exact ih l'

theorem runAll_prints (l : Line) (items : List Item) : runAll l items = prints l (items.flatMap texts) := by
  induction items generalizing l with
  | nil => rfl
  | cons i rest ih =>
    rw [List.flatMap_cons, prints_append]
    show (i.run l).bind _ = _
    rw [run_prints]
    congr 1
    funext l'
    exact ih l'

theorem prints_holds (ts : List Bytes) {l : Line} {t : Bytes} (h : Holds l t) (hn : t.length + ts.flatten.length ≤ 1023) :
    ∃ l', prints l ts = some l' ∧ Holds l' (t ++ ts.flatten) := by
  induction ts generalizing l t with
  | nil => exact ⟨l, rfl, by simpa using h⟩
  | cons u rest ih =>
    rw [List.flatten_cons, List.length_append] at hn
    obtain ⟨l1, h1, h2⟩ := part_holds h u (by omega)
    obtain ⟨l2, h3, h4⟩ := ih h2 (by rw [List.length_append]; omega)
    refine ⟨l2, ?_, by rw [List.flatten_cons, ← List.append_assoc]; exact h4⟩
    show (part l u).bind _ = _
    rw [h1]; exact h3

theorem begin_holds (l : Line) (hl : l.buffer.length = 1024) : Holds (begin_ l) [] := by
  refine ⟨rfl, ?_, l.buffer.drop 1, ?_⟩
  · show (l.buffer.take 0 ++ [0] ++ l.buffer.drop (0 + [(0 : UInt8)].length)).length = 1024
    simp; omega
  · show l.buffer.take 0 ++ [0] ++ l.buffer.drop (0 + [(0 : UInt8)].length) = _
    simp

theorem end_holds {l : Line} {t : Bytes} (h : Holds l t) (hz : 0 ∉ t) : end_ l = if t = [] then none else some t := by
  obtain ⟨hp, _, rest, hb⟩ := h
  unfold end_
  cases t with
  | nil => rw [if_neg (by rw [hp]; simp), if_pos rfl]
  | cons x xs =>
    rw [if_pos (by rw [hp]; simp), if_neg (by simp), hb, List.takeWhile_append_of_pos]
    · simp
    · intro y hy
      simp only [bne_iff_ne, ne_eq]
      intro h0
      exact hz (h0 ▸ hy)

theorem hex_right : ∀ b : UInt8, b.toNat < 16 →
    formatX (b.toNat >>> 4) ++ formatX b.toNat = [hexDigit (b.toNat / 16), hexDigit (b.toNat % 16)] := by
  have h : ∀ n : Fin 16, formatX (n.val >>> 4) ++ formatX n.val = [hexDigit (n.val / 16), hexDigit (n.val % 16)] := by decide +kernel
  exact fun b hb => h ⟨b.toNat, hb⟩

theorem says_texts (i : Item) (hx : ∀ data, i = .hex data → ∀ b ∈ data, b.toNat < 16) : (texts i).flatten = i.says := by
  cases i with
  | part text => simp [texts, Item.says]
  | hex data =>
    have h := hx data rfl
    show (data.map _).flatten = data.flatMap _
    rw [← List.flatMap_def]
    clear hx
    induction data with
    | nil => rfl
    | cons b rest ih =>
      rw [List.flatMap_cons, List.flatMap_cons, hex_right b (h b (by simp)), ih fun x hx => h x (by simp [hx])]
  | bits data =>
    show (data.map _).flatten = data.flatMap _
    rw [← List.flatMap_def]

end TraceLine

/-- **C99** (partial): a line of text and bits, of up to 1023 characters, is printed as it should be, whatever the buffer held
before.  Bytes in hexadecimal are right as long as they have one digit. -/
theorem c99_line_partial (l : Line) (hl : l.buffer.length = 1024) (items : List Item)
    (hx : ∀ data, Item.hex data ∈ items → ∀ b ∈ data, b.toNat < 16)
    (hn : (items.flatMap Item.says).length ≤ 1023) (hz : 0 ∉ items.flatMap Item.says) :
    line l items = some (if items.flatMap Item.says = [] then none else some (items.flatMap Item.says)) := by
  have he : (items.flatMap TraceLine.texts).flatten = items.flatMap Item.says := by
    clear hn hz
    induction items with
    | nil => rfl
    | cons i rest ih =>
      rw [List.flatMap_cons, List.flatten_append, List.flatMap_cons,
        TraceLine.says_texts i (fun data hd => hx data (by simp [hd])), ih fun data hd => hx data (by simp [hd])]
  obtain ⟨l', h1, h2⟩ := TraceLine.prints_holds (items.flatMap TraceLine.texts) (TraceLine.begin_holds l hl)
    (by rw [he]; simpa using hn)
  unfold line
  rw [TraceLine.runAll_prints, h1]
  simp only [List.nil_append] at h2
  rw [he] at h2
  show some (end_ l') = _
  rw [TraceLine.end_holds h2 hz]

/-- "chMask=" -/
def maskLabel : Bytes := "chMask=".toList.map fun c => UInt8.ofNat c.toNat

/-- **C99**: the line on the channel mask is right for a mask of up to 127 bytes (that of the library has 9). -/
theorem c99_channel_mask (l : Line) (hl : l.buffer.length = 1024) (mask : Bytes) (hm : mask.length ≤ 127) :
    Trace.maskLine l mask = some (some (maskLabel ++ (Item.bits mask).says)) := by
  have hlen : (Item.bits mask).says.length = 8 * mask.length ∧ 0 ∉ (Item.bits mask).says := by
    clear hm
    induction mask with
    | nil => exact ⟨rfl, by simp [Item.says]⟩
    | cons b rest ih =>
      have : (Item.bits (b :: rest)).says = ([7, 6, 5, 4, 3, 2, 1, 0].map fun i => if b.toNat.testBit i then (49 : UInt8) else 48) ++
        (Item.bits rest).says := rfl
      rw [this, List.length_append, ih.1]
      refine ⟨by simp; omega, ?_⟩
      intro h0
      rcases List.mem_append.1 h0 with h0 | h0
      · obtain ⟨i, _, hi⟩ := List.mem_map.1 h0
        split at hi <;> exact absurd hi (by decide)
      · exact ih.2 h0
  have hlab : maskLabel = [0x63, 0x68, 0x4d, 0x61, 0x73, 0x6b, 0x3d] := by decide
  have he : [Item.part maskLabel, Item.bits mask].flatMap Item.says = maskLabel ++ (Item.bits mask).says := by
    simp [Item.says]
  have h := c99_line_partial l hl [.part maskLabel, .bits mask] (by simp)
    (by rw [he, List.length_append, hlen.1, hlab]; simp; omega)
    (by
      rw [he]
      intro h0
      rcases List.mem_append.1 h0 with h0 | h0
      · exact absurd h0 (by rw [hlab]; decide)
      · exact hlen.2 h0)
  rw [he, if_neg (by rw [hlab]; simp)] at h
  rw [← h]
  unfold line Trace.maskLine
  rw [hlab]
  congr 1
  show _ = (part (begin_ l) _).bind _
  congr 1
  funext l'
  show _ = (Trace.bitstring l' mask).bind _
  cases Trace.bitstring l' mask <;> rfl

/-- A line as the library writes it, over what was left from another. -/
example : line ⟨List.replicate 1024 65, 77⟩ [.part maskLabel, .bits [0xff, 0x07], .part [0x21]] =
    some (some (("chMask=1111111100000111!".toList).map fun c => UInt8.ofNat c.toNat)) := by decide +kernel

/-! ## Longer lines -/

namespace TraceLine

theorem part_length {l l' : Line} {t : Bytes} (hl : l.buffer.length = 1024) (h : part l t = some l') :
    l'.buffer.length = 1024 ∧ l'.pos = u32 (l.pos + t.length) := by
  unfold part Trace.snprintf at h
  split at h
  · obtain rfl := Option.some.inj h
    exact ⟨hl, rfl⟩
  · simp only [] at h
    split at h
    · rename_i hle
      obtain rfl := Option.some.inj h
      refine ⟨?_, rfl⟩
      simp only [memcpyAt, List.length_append, List.length_take, List.length_drop, List.length_cons, List.length_nil] at hle ⊢
      omega
    · cases h

/-- One more text: it stays in the buffer exactly if at most 1024 characters came before. -/
theorem part_defined (l : Line) (hl : l.buffer.length = 1024) (t : Bytes) (hp : l.pos + t.length < 2147483648) :
    (part l t).isSome = true ↔ l.pos ≤ 1024 := by
  unfold part
  rw [Option.isSome_map]
  unfold Trace.snprintf
  constructor
  · intro h
    by_cases hle : l.pos ≤ 1024
    · exact hle
    · have hn : sub32 SIZE l.pos = 4294967296 + 1024 - l.pos := by unfold sub32 SIZE; omega
      rw [hn, if_neg (by omega)] at h
      simp only [] at h
      rw [if_neg (by simp only [List.length_append]; omega)] at h
      cases h
  · intro h
    rw [sub_small h]
    split
    · rfl
    · simp only []
      rw [if_pos]
      · rfl
      · simp only [List.length_append, List.length_take, List.length_cons, List.length_nil]
        omega

theorem prints_defined (ts : List Bytes) (l : Line) (hl : l.buffer.length = 1024) (hp : l.pos + ts.flatten.length < 2147483648) :
    (prints l ts).isSome = true ↔ ∀ a b c, ts = a ++ b :: c → l.pos + a.flatten.length ≤ 1024 := by
  induction ts generalizing l with
  | nil =>
    refine ⟨fun _ a b c h => ?_, fun _ => rfl⟩
    exact absurd h (by simp)
  | cons t rest ih =>
    rw [List.flatten_cons, List.length_append] at hp
    have hd := part_defined l hl t (by omega)
    show ((part l t).bind _).isSome = true ↔ _
    cases hpart : part l t with
    | none =>
      rw [hpart] at hd
      constructor
      · intro h; cases h
      · intro h
        have := h [] t rest rfl
        exact absurd (hd.2 (by simpa using this)) (by simp)
    | some l' =>
      rw [hpart] at hd
      have h0 := hd.1 rfl
      obtain ⟨h1, h2⟩ := part_length hl hpart
      have h3 : l'.pos = l.pos + t.length := by rw [h2]; unfold u32; omega
      show (prints l' rest).isSome = true ↔ _
      rw [ih l' h1 (by omega)]
      constructor
      · intro h a b c he
        cases a with
        | nil => simpa using h0
        | cons x xs =>
          have he' := List.cons.inj he
          rw [← he'.1]
          have := h xs b c he'.2
          rw [List.flatten_cons, List.length_append]
          omega
      · intro h a b c he
        have := h (t :: a) b c (by rw [he]; rfl)
        rw [List.flatten_cons, List.length_append] at this
        omega

end TraceLine

/-- **C99**: exactly when a line of texts writes outside of its buffer: when more texts come after the first 1024 characters have
been exceeded. -/
theorem c99_outside (l : Line) (hl : l.buffer.length = 1024) (texts : List Bytes) (hn : texts.flatten.length < 2147483648) :
    line l (texts.map Item.part) = none ↔ ∃ a b c, texts = a ++ b :: c ∧ 1024 < a.flatten.length := by
  have h := TraceLine.prints_defined texts (begin_ l) (TraceLine.begin_holds l hl).2.1 (by show 0 + _ < _; omega)
  have he : (texts.map Item.part).flatMap TraceLine.texts = texts := by
    clear hn h
    induction texts with
    | nil => rfl
    | cons t rest ih => rw [List.map_cons, List.flatMap_cons, ih]; rfl
  have hline : line l (texts.map Item.part) = none ↔ ¬ (TraceLine.prints (begin_ l) texts).isSome = true := by
    unfold line
    rw [TraceLine.runAll_prints, he]
    cases TraceLine.prints (begin_ l) texts <;> simp
  rw [hline, h]
  have h0 : (begin_ l).pos = 0 := rfl
  rw [h0]
  simp only [Nat.zero_add]
  constructor
  · intro hh
    simp only [Classical.not_forall] at hh
    obtain ⟨a, b, c, e, hh⟩ := hh
    exact ⟨a, b, c, e, by omega⟩
  · rintro ⟨a, b, c, e, hh⟩ h'
    have := h' a b c e
    omega

/-- **C99** needs the condition: two texts, the first longer than the buffer, write outside of it. -/
theorem c99_overrun (l : Line) (hl : l.buffer.length = 1024) (t u : Bytes) (ht : 1024 < t.length) (hn : t.length + u.length < 2147483648) :
    line l [.part t, .part u] = none :=
  (c99_outside l hl [t, u] (by simpa using hn)).2 ⟨[t], u, [], rfl, by simpa using ht⟩

/-- **C99**, memory: items that make up to 1024 characters, counting three for each byte in hexadecimal, never write outside
of the buffer. -/
theorem c99_inside (l : Line) (hl : l.buffer.length = 1024) (items : List Item)
    (hn : (items.map fun | .part t => t.length | .hex d => 3 * d.length | .bits d => 8 * d.length).sum ≤ 1024) :
    line l items ≠ none := by
  have hlen : (items.flatMap TraceLine.texts).flatten.length ≤
      (items.map fun | .part t => t.length | .hex d => 3 * d.length | .bits d => 8 * d.length).sum := by
    clear hn
    induction items with
    | nil => exact Nat.le_refl _
    | cons i rest ih =>
      rw [List.flatMap_cons, List.flatten_append, List.length_append, List.map_cons, List.sum_cons]
      refine Nat.add_le_add ?_ ih
      cases i with
      | part t => simp [TraceLine.texts]
      | hex d =>
        show ((d.map _).flatten).length ≤ 3 * d.length
        induction d with
        | nil => exact Nat.le_refl _
        | cons b bs ihb =>
          rw [List.map_cons, List.flatten_cons, List.length_append, List.length_cons]
          have h1 : (formatX (b.toNat >>> 4)).length = 1 := by
            have : b.toNat >>> 4 < 16 := by have := b.toNat_lt; rw [Nat.shiftRight_eq_div_pow]; omega
            unfold formatX; rw [if_pos this]; rfl
          have h2 : (formatX b.toNat).length ≤ 2 := by unfold formatX; split <;> simp
          rw [List.length_append]
          omega
      | bits d =>
        show ((d.map _).flatten).length ≤ 8 * d.length
        induction d with
        | nil => exact Nat.le_refl _
        | cons b bs ihb =>
          rw [List.map_cons, List.flatten_cons, List.length_append, List.length_cons, List.length_map]
          simp only [List.length_cons, List.length_nil] at ihb ⊢
          omega
  have h := TraceLine.prints_defined (items.flatMap TraceLine.texts) (begin_ l) (TraceLine.begin_holds l hl).2.1
    (by show 0 + _ < _; omega)
  unfold line
  rw [TraceLine.runAll_prints]
  have hs : (TraceLine.prints (begin_ l) (items.flatMap TraceLine.texts)).isSome = true := by
    refine h.2 fun a b c e => ?_
    rw [e] at hlen
    rw [List.flatten_append, List.length_append] at hlen
    show 0 + a.flatten.length ≤ 1024
    omega
  cases hp : TraceLine.prints (begin_ l) (items.flatMap TraceLine.texts) with
  | none => rw [hp] at hs; cases hs
  | some l' => simp

/-- **C99** needs the condition: each byte of two digits in hexadecimal is printed with three. -/
theorem c99_hex_not (l : Line) (hl : l.buffer.length = 1024) (b : UInt8) (hb : 16 ≤ b.toNat) :
    line l [.hex [b]] = some (some [hexDigit (b.toNat / 16), hexDigit (b.toNat / 16), hexDigit (b.toNat % 16)]) ∧
      line l [.hex [b]] ≠ some (some (Item.hex [b]).says) := by
  have hd : ∀ n : Fin 256, 16 ≤ n.val → formatX (n.val >>> 4) ++ formatX n.val =
      [hexDigit (n.val / 16), hexDigit (n.val / 16), hexDigit (n.val % 16)] ∧
      0 ∉ [hexDigit (n.val / 16), hexDigit (n.val / 16), hexDigit (n.val % 16)] := by decide +kernel
  have h := hd ⟨b.toNat, b.toNat_lt⟩ hb
  have h1 := c99_line_partial l hl [.part (formatX (b.toNat >>> 4) ++ formatX b.toNat)] (by simp)
    (by simp only [List.flatMap_cons, List.flatMap_nil, Item.says, h.1]; simp)
    (by simp only [List.flatMap_cons, List.flatMap_nil, Item.says, h.1, List.append_nil]; exact h.2)
  have h2 : line l [.hex [b]] = line l [.part (formatX (b.toNat >>> 4) ++ formatX b.toNat)] := by
    unfold line
    rw [TraceLine.runAll_prints, TraceLine.runAll_prints]
    rfl
  rw [h2, h1]
  simp only [List.flatMap_cons, List.flatMap_nil, Item.says, h.1, List.append_nil]
  exact ⟨rfl, by simp⟩

/-- 0x12 is printed as 112. -/
example : line ⟨List.replicate 1024 0, 0⟩ [.hex [0x12]] = some (some [49, 49, 50]) := by decide +kernel

end LDL
