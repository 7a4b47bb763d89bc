import Verif.Model.Aes
import Verif.Spec.Aes

/-! Helper lemmas for AES. -/

namespace LDL.Aes

theorem sbox_eq (b : UInt8) : SBOX b = Spec.Aes.sbox b := by
  have h : ∀ n : Fin 256, SBOX (UInt8.ofNat n) = Spec.Aes.sbox (UInt8.ofNat n) := by decide +kernel
  have := h ⟨b.toNat, b.toNat_lt⟩
  simpa using this

theorem inv_spec (b : UInt8) (hb : b ≠ 0) : Spec.Aes.gmul b (Spec.Aes.inv b) = 1 := by
  have h : ∀ n : Fin 256, n ≠ 0 →
      Spec.Aes.gmul (UInt8.ofNat n) (Spec.Aes.inv (UInt8.ofNat n)) = 1 := by decide +kernel
  have := h ⟨b.toNat, b.toNat_lt⟩ (by
    intro h0; apply hb; apply UInt8.toNat_inj.mp
    have := congrArg Fin.val h0
    simpa using this)
  simpa using this

theorem mul2_eq (b : UInt8) : GALOIS_MUL2 b = Spec.Aes.gmul 2 b := by
  have h : ∀ n : Fin 256, GALOIS_MUL2 (UInt8.ofNat n) = Spec.Aes.gmul 2 (UInt8.ofNat n) := by
    decide +kernel
  have := h ⟨b.toNat, b.toNat_lt⟩
  simpa using this

theorem mul3_eq (b : UInt8) : Spec.Aes.gmul 3 b = Spec.Aes.gmul 2 b ^^^ b := by
  have h : ∀ n : Fin 256, Spec.Aes.gmul 3 (UInt8.ofNat n)
      = Spec.Aes.gmul 2 (UInt8.ofNat n) ^^^ (UInt8.ofNat n) := by
    decide +kernel
  have := h ⟨b.toNat, b.toNat_lt⟩
  simpa using this

theorem mul2_form (b : UInt8) : GALOIS_MUL2 b = (b <<< 1) ^^^ ((b >>> 7) * 0x1b) := by
  have h : ∀ n : Fin 256, GALOIS_MUL2 (UInt8.ofNat n)
      = ((UInt8.ofNat n) <<< 1) ^^^ ((UInt8.ofNat n >>> 7) * 0x1b) := by
    decide +kernel
  have := h ⟨b.toNat, b.toNat_lt⟩
  simpa using this

theorem mul2_xor (a b : UInt8) : GALOIS_MUL2 (a ^^^ b) = GALOIS_MUL2 a ^^^ GALOIS_MUL2 b := by
  have hbit : ∀ x : UInt8, x >>> 7 = 0 ∨ x >>> 7 = 1 := by
    intro x
    have h : ∀ n : Fin 256, UInt8.ofNat n >>> 7 = 0 ∨ UInt8.ofNat n >>> 7 = 1 := by decide +kernel
    simpa using h ⟨x.toNat, x.toNat_lt⟩
  rw [mul2_form, mul2_form, mul2_form, UInt8.shiftLeft_xor, UInt8.shiftRight_xor]
  rcases hbit a with h | h <;> rcases hbit b with h' | h' <;> rw [h, h'] <;>
    simp only [UInt8.zero_mul, UInt8.xor_zero, UInt8.zero_xor, UInt8.xor_self, UInt8.one_mul]
  · ac_rfl
  · ac_rfl
  · have : ∀ x y c : UInt8, x ^^^ y = x ^^^ c ^^^ (y ^^^ c) := by
      intro x y c
      rw [show x ^^^ c ^^^ (y ^^^ c) = x ^^^ y ^^^ (c ^^^ c) by ac_rfl]
      simp
    exact this _ _ _

theorem len16 {s : Bytes} (h : s.length = 16) : ∃ a0 a1 a2 a3 a4 a5 a6 a7 a8 a9 a10 a11 a12 a13 a14 a15,
    s = [a0, a1, a2, a3, a4, a5, a6, a7, a8, a9, a10, a11, a12, a13, a14, a15] := by
  match s, h with
  | [a0, a1, a2, a3, a4, a5, a6, a7, a8, a9, a10, a11, a12, a13, a14, a15], _ =>
    exact ⟨a0, a1, a2, a3, a4, a5, a6, a7, a8, a9, a10, a11, a12, a13, a14, a15, rfl⟩

/-- Round key bytes added to a state. -/
def keyed (k : Bytes) (p : Nat) (s : Spec.Aes.State) : Spec.Aes.State :=
  fun r c => s r c ^^^ k.getD (p + (r.val + 4 * c.val)) 0

theorem subShift_eq (k : Bytes) (p : Nat) (s : Bytes) (h : s.length = 16) :
    subShift k p s = Spec.Aes.ofState
      (Spec.Aes.shiftRows (Spec.Aes.subBytes (keyed k p (Spec.Aes.toState s)))) := by
  obtain ⟨a0, a1, a2, a3, a4, a5, a6, a7, a8, a9, a10, a11, a12, a13, a14, a15, rfl⟩ := len16 h
  have e : Spec.Aes.subBytes (keyed k p (Spec.Aes.toState
      [a0, a1, a2, a3, a4, a5, a6, a7, a8, a9, a10, a11, a12, a13, a14, a15])) =
    fun r c => SBOX (keyed k p (Spec.Aes.toState
      [a0, a1, a2, a3, a4, a5, a6, a7, a8, a9, a10, a11, a12, a13, a14, a15]) r c) := by
    funext r c; simp only [Spec.Aes.subBytes, sbox_eq]
  rw [e]
  rfl

attribute [local irreducible] GALOIS_MUL2 SBOX Spec.Aes.gmul Spec.Aes.sbox

theorem col_eq (a b c d : UInt8) :
    a ^^^ ((a ^^^ b ^^^ c ^^^ d) ^^^ GALOIS_MUL2 (a ^^^ b)) =
    Spec.Aes.gmul 2 a ^^^ Spec.Aes.gmul 3 b ^^^ c ^^^ d := by
  rw [mul2_xor, mul3_eq, ← mul2_eq, ← mul2_eq]
  generalize GALOIS_MUL2 a = x
  generalize GALOIS_MUL2 b = y
  rw [show a ^^^ ((a ^^^ b ^^^ c ^^^ d) ^^^ (x ^^^ y)) = (a ^^^ a) ^^^ (x ^^^ (y ^^^ b) ^^^ c ^^^ d) by ac_rfl]
  simp

/-- One column as computed by the code. -/
def mix4 (a b c d : UInt8) : Bytes :=
  [a ^^^ ((a ^^^ b ^^^ c ^^^ d) ^^^ GALOIS_MUL2 (a ^^^ b)),
   b ^^^ ((a ^^^ b ^^^ c ^^^ d) ^^^ GALOIS_MUL2 (b ^^^ c)),
   c ^^^ ((a ^^^ b ^^^ c ^^^ d) ^^^ GALOIS_MUL2 (c ^^^ d)),
   d ^^^ ((a ^^^ b ^^^ c ^^^ d) ^^^ GALOIS_MUL2 (d ^^^ a))]

theorem mixColumns_eq (s : Spec.Aes.State) :
    mixColumns (Spec.Aes.ofState s) = Spec.Aes.ofState (Spec.Aes.mixColumns s) := by
  have c0 := fun c : Fin 4 => col_eq (s 0 c) (s 1 c) (s 2 c) (s 3 c)
  have c1 := fun c : Fin 4 => col_eq (s 1 c) (s 2 c) (s 3 c) (s 0 c)
  have c2 := fun c : Fin 4 => col_eq (s 2 c) (s 3 c) (s 0 c) (s 1 c)
  have c3 := fun c : Fin 4 => col_eq (s 3 c) (s 0 c) (s 1 c) (s 2 c)
  have r1 : ∀ a b c d : UInt8, a ^^^ b ^^^ c ^^^ d = d ^^^ a ^^^ b ^^^ c := by intros; ac_rfl
  have r2 : ∀ a b c d : UInt8, a ^^^ b ^^^ c ^^^ d = c ^^^ d ^^^ a ^^^ b := by intros; ac_rfl
  have r3 : ∀ a b c d : UInt8, a ^^^ b ^^^ c ^^^ d = b ^^^ c ^^^ d ^^^ a := by intros; ac_rfl
  have key : ∀ c : Fin 4,
      (s 0 c ^^^ ((s 0 c ^^^ s 1 c ^^^ s 2 c ^^^ s 3 c) ^^^ GALOIS_MUL2 (s 0 c ^^^ s 1 c)) =
        Spec.Aes.mixColumns s 0 c) ∧
      (s 1 c ^^^ ((s 0 c ^^^ s 1 c ^^^ s 2 c ^^^ s 3 c) ^^^ GALOIS_MUL2 (s 1 c ^^^ s 2 c)) =
        Spec.Aes.mixColumns s 1 c) ∧
      (s 2 c ^^^ ((s 0 c ^^^ s 1 c ^^^ s 2 c ^^^ s 3 c) ^^^ GALOIS_MUL2 (s 2 c ^^^ s 3 c)) =
        Spec.Aes.mixColumns s 2 c) ∧
      (s 3 c ^^^ ((s 0 c ^^^ s 1 c ^^^ s 2 c ^^^ s 3 c) ^^^ GALOIS_MUL2 (s 3 c ^^^ s 0 c)) =
        Spec.Aes.mixColumns s 3 c) := by
    intro c
    refine ⟨c0 c, ?_, ?_, ?_⟩
    · rw [r3 (s 0 c)]; exact c1 c
    · rw [r2 (s 0 c)]; exact c2 c
    · rw [r1 (s 0 c)]; exact c3 c
  have m0 : ∀ a0 a1 a2 a3 a4 a5 a6 a7 a8 a9 a10 a11 a12 a13 a14 a15 : UInt8,
      mixColumn [a0, a1, a2, a3, a4, a5, a6, a7, a8, a9, a10, a11, a12, a13, a14, a15] 0 =
      mix4 a0 a1 a2 a3 ++ [a4, a5, a6, a7, a8, a9, a10, a11, a12, a13, a14, a15] := by intros; rfl
  have m1 : ∀ a0 a1 a2 a3 a4 a5 a6 a7 a8 a9 a10 a11 a12 a13 a14 a15 : UInt8,
      mixColumn [a0, a1, a2, a3, a4, a5, a6, a7, a8, a9, a10, a11, a12, a13, a14, a15] 4 =
      [a0, a1, a2, a3] ++ mix4 a4 a5 a6 a7 ++ [a8, a9, a10, a11, a12, a13, a14, a15] := by intros; rfl
  have m2 : ∀ a0 a1 a2 a3 a4 a5 a6 a7 a8 a9 a10 a11 a12 a13 a14 a15 : UInt8,
      mixColumn [a0, a1, a2, a3, a4, a5, a6, a7, a8, a9, a10, a11, a12, a13, a14, a15] 8 =
      [a0, a1, a2, a3, a4, a5, a6, a7] ++ mix4 a8 a9 a10 a11 ++ [a12, a13, a14, a15] := by intros; rfl
  have m3 : ∀ a0 a1 a2 a3 a4 a5 a6 a7 a8 a9 a10 a11 a12 a13 a14 a15 : UInt8,
      mixColumn [a0, a1, a2, a3, a4, a5, a6, a7, a8, a9, a10, a11, a12, a13, a14, a15] 12 =
      [a0, a1, a2, a3, a4, a5, a6, a7, a8, a9, a10, a11] ++ mix4 a12 a13 a14 a15 := by intros; rfl
  have mk : ∀ c : Fin 4, mix4 (s 0 c) (s 1 c) (s 2 c) (s 3 c) =
      [Spec.Aes.mixColumns s 0 c, Spec.Aes.mixColumns s 1 c, Spec.Aes.mixColumns s 2 c,
       Spec.Aes.mixColumns s 3 c] := by
    intro c
    obtain ⟨k0, k1, k2, k3⟩ := key c
    rw [← k0, ← k1, ← k2, ← k3]
    rfl
  simp only [Spec.Aes.ofState, mixColumns, List.foldl_cons, List.foldl_nil]
  rw [m0, mk 0]
  simp only [List.cons_append, List.nil_append]
  rw [m1, mk 1]
  simp only [List.cons_append, List.nil_append]
  rw [m2, mk 2]
  simp only [List.cons_append, List.nil_append]
  rw [m3, mk 3]
  simp only [List.cons_append, List.nil_append]

theorem addKey_eq (k : Bytes) (p : Nat) (s : Spec.Aes.State) :
    addKey k p (Spec.Aes.ofState s) = Spec.Aes.ofState (keyed k p s) := by
  simp [addKey, Spec.Aes.ofState, keyed, List.range_succ]
  exact ⟨rfl, rfl, rfl, rfl, rfl, rfl, rfl⟩

theorem toState_ofState (s : Spec.Aes.State) : Spec.Aes.toState (Spec.Aes.ofState s) = s := by
  funext r c
  match r, c with
  | 0, 0 | 1, 0 | 2, 0 | 3, 0 | 0, 1 | 1, 1 | 2, 1 | 3, 1
  | 0, 2 | 1, 2 | 2, 2 | 3, 2 | 0, 3 | 1, 3 | 2, 3 | 3, 3 => rfl

/-- Byte `j` of the specification's key schedule. -/
def W (key : Bytes) (j : Nat) : UInt8 := Spec.Aes.w key (j / 4) ⟨j % 4, Nat.mod_lt _ (by omega)⟩

/-- All bytes so far are the specification's. -/
def Good (key k : Bytes) : Prop := ∀ j, j < k.length → k.getD j 0 = W key j

theorem Good.append {key k : Bytes} (h : Good key k) {v : UInt8} (hv : v = W key k.length) :
    Good key (k ++ [v]) := by
  intro j hj
  simp only [List.length_append, List.length_singleton] at hj
  by_cases hlt : j < k.length
  · rw [← h j hlt]
    simp only [List.getD_eq_getElem?_getD]
    rw [List.getElem?_append_left hlt]
  · have : j = k.length := by omega
    subst this
    simp [List.getD, hv]

theorem W_step {key : Bytes} {p : Nat} (hp : 16 ≤ p) (h4 : p % 16 / 4 ≠ 0) :
    W key p = W key (p - 4) ^^^ W key (p - 16) := by
  simp only [W]
  rw [Spec.Aes.w, dif_neg (by omega)]
  simp only [Spec.Aes.xorWord]
  rw [if_neg (by omega)]
  have e1 : (p - 4) / 4 = p / 4 - 1 := by omega
  have e2 : (p - 16) / 4 = p / 4 - 4 := by omega
  have e3 : (p - 4) % 4 = p % 4 := by omega
  have e4 : (p - 16) % 4 = p % 4 := by omega
  simp only [e1, e2, e3, e4]
  exact UInt8.xor_comm _ _

theorem W_round {key : Bytes} {p : Nat} (hp : 16 ≤ p) (h4 : p % 16 / 4 = 0) (q : Nat)
    (hq : q = p / 4 * 4 - 4 + (p % 4 + 1) % 4) :
    W key p = Spec.Aes.sbox (W key q) ^^^ (if p % 4 = 0 then Nat.repeat Spec.Aes.xtime (p / 16 - 1) 1 else 0)
      ^^^ W key (p - 16) := by
  simp only [W]
  rw [Spec.Aes.w, dif_neg (by omega)]
  simp only [Spec.Aes.xorWord]
  rw [if_pos (by omega)]
  have e1 : q / 4 = p / 4 - 1 := by omega
  have e2 : (p - 16) / 4 = p / 4 - 4 := by omega
  have e4 : (p - 16) % 4 = p % 4 := by omega
  have e5 : p / 4 / 4 = p / 16 := by omega
  simp only [e1, e2, e4, Spec.Aes.subWord, Spec.Aes.rotWord, Spec.Aes.rconWord, e5]
  rw [UInt8.xor_comm]
  congr 1
  simp only [Spec.Aes.xorWord, Spec.Aes.subWord, Spec.Aes.rotWord]
  congr 1
  · congr 2
    apply Fin.ext
    simp only [Fin.val_add]
    have : q % 4 = (p % 4 + 1) % 4 := by omega
    rw [this]; rfl
  · by_cases h0 : p % 4 = 0
    · rw [if_pos h0]; unfold Spec.Aes.rconWord; rw [if_pos (by apply Fin.ext; exact h0)]
    · rw [if_neg h0]; unfold Spec.Aes.rconWord; rw [if_neg (by intro h; exact h0 (congrArg Fin.val h))]

theorem scheduleByte_good {key k : Bytes} (h : Good key k) (hp : 16 ≤ k.length)
    (h4 : k.length % 16 / 4 ≠ 0) : Good key (scheduleByte k) := by
  refine h.append ?_
  rw [h _ (by omega), h _ (by omega), W_step hp h4]

theorem scheduleRound_good {key k : Bytes} (h : Good key k) (i : Nat) (hi : i < 11) (hi0 : 0 < i)
    (hp : k.length = 16 * i) :
    Good key (scheduleRound k i) ∧ (scheduleRound k i).length = 16 * (i + 1) := by
  have hr : rcon.getD i 0 = Nat.repeat Spec.Aes.xtime (i - 1) 1 := by
    have : ∀ i : Fin 11, 0 < i.val → rcon.getD i.val 0 = Nat.repeat Spec.Aes.xtime (i.val - 1) 1 := by decide
    exact this ⟨i, hi⟩ hi0
  have hl : ∀ k : Bytes, (scheduleByte k).length = k.length + 1 := by intro k; simp [scheduleByte]
  have h1 : Good key (k ++ [SBOX (k.getD (k.length - 3) 0) ^^^ k.getD (k.length - 16) 0 ^^^ rcon.getD i 0]) := by
    refine h.append ?_
    rw [h _ (by omega), h _ (by omega), sbox_eq, hr, W_round (p := k.length) (by omega) (by omega) (k.length - 3) (by omega),
      if_pos (by omega), show k.length / 16 - 1 = i - 1 by omega]
    ac_rfl
  have l1 : (k ++ [SBOX (k.getD (k.length - 3) 0) ^^^ k.getD (k.length - 16) 0 ^^^ rcon.getD i 0]).length = k.length + 1 := by simp
  simp only [scheduleRound]
  generalize (k ++ [SBOX (k.getD (k.length - 3) 0) ^^^ k.getD (k.length - 16) 0 ^^^ rcon.getD i 0]) = k1 at h1 l1
  have h2 : Good key (k1 ++ [SBOX (k1.getD (k.length - 2) 0) ^^^ k1.getD (k.length + 1 - 16) 0]) := by
    refine h1.append ?_
    rw [h1 _ (by omega), h1 _ (by omega), sbox_eq, l1, W_round (p := k.length + 1) (by omega) (by omega) (k.length - 2) (by omega),
      if_neg (by omega)]
    simp
  have l2 : (k1 ++ [SBOX (k1.getD (k.length - 2) 0) ^^^ k1.getD (k.length + 1 - 16) 0]).length = k.length + 2 := by simp [l1]
  generalize (k1 ++ [SBOX (k1.getD (k.length - 2) 0) ^^^ k1.getD (k.length + 1 - 16) 0]) = k2 at h2 l2
  have h3 : Good key (k2 ++ [SBOX (k2.getD (k.length - 1) 0) ^^^ k2.getD (k.length + 2 - 16) 0]) := by
    refine h2.append ?_
    rw [h2 _ (by omega), h2 _ (by omega), sbox_eq, l2, W_round (p := k.length + 2) (by omega) (by omega) (k.length - 1) (by omega),
      if_neg (by omega)]
    simp
  have l3 : (k2 ++ [SBOX (k2.getD (k.length - 1) 0) ^^^ k2.getD (k.length + 2 - 16) 0]).length = k.length + 3 := by simp [l2]
  generalize (k2 ++ [SBOX (k2.getD (k.length - 1) 0) ^^^ k2.getD (k.length + 2 - 16) 0]) = k3 at h3 l3
  have h4 : Good key (k3 ++ [SBOX (k.getD (k.length - 4) 0) ^^^ k3.getD (k.length + 3 - 16) 0]) := by
    refine h3.append ?_
    rw [h _ (by omega), h3 _ (by omega), sbox_eq, l3, W_round (p := k.length + 3) (by omega) (by omega) (k.length - 4) (by omega),
      if_neg (by omega)]
    simp
  have l4 : (k3 ++ [SBOX (k.getD (k.length - 4) 0) ^^^ k3.getD (k.length + 3 - 16) 0]).length = k.length + 4 := by simp [l3]
  generalize (k3 ++ [SBOX (k.getD (k.length - 4) 0) ^^^ k3.getD (k.length + 3 - 16) 0]) = k4 at h4 l4
  have : ∀ n, n ≤ 12 → Good key ((List.range n).foldl (fun k _ => scheduleByte k) k4) ∧
      ((List.range n).foldl (fun k _ => scheduleByte k) k4).length = k.length + 4 + n := by
    intro n
    induction n with
    | zero => intro _; exact ⟨h4, l4⟩
    | succ n ih =>
      intro hn
      obtain ⟨a, b⟩ := ih (by omega)
      rw [List.range_succ, List.foldl_append]
      exact ⟨scheduleByte_good a (by omega) (by omega), by simp only [List.foldl_cons, List.foldl_nil, hl]; omega⟩
  obtain ⟨a, b⟩ := this 12 (by omega)
  exact ⟨a, by omega⟩

theorem init_good {key : Bytes} (h : key.length = 16) : Good key (init key) ∧ (init key).length = 176 := by
  have base : Good key key := by
    intro j hj
    simp only [W]
    rw [Spec.Aes.w, dif_pos (by omega)]
    dsimp only
    congr 1; omega
  have : ∀ n, n ≤ 10 → Good key ((List.range n).foldl (fun k i => scheduleRound k (i + 1)) key) ∧
      ((List.range n).foldl (fun k i => scheduleRound k (i + 1)) key).length = 16 * (n + 1) := by
    intro n
    induction n with
    | zero => intro _; exact ⟨base, by simpa using h⟩
    | succ n ih =>
      intro hn
      obtain ⟨a, b⟩ := ih (by omega)
      have := scheduleRound_good a (n + 1) (by omega) (by omega) b
      rw [List.range_succ, List.foldl_append, List.foldl_cons, List.foldl_nil]
      exact this
  have := this 10 (by omega)
  unfold init
  exact ⟨this.1, this.2.trans (by decide)⟩

theorem keyed_eq {key : Bytes} (h : key.length = 16) (round : Nat) (hr : round ≤ 10)
    (s : Spec.Aes.State) : keyed (init key) (16 * round) s = Spec.Aes.addRoundKey key round s := by
  obtain ⟨hg, hl⟩ := init_good h
  funext r c
  simp only [keyed, Spec.Aes.addRoundKey]
  have hr := r.isLt
  have hc := c.isLt
  rw [hg _ (by omega)]
  have e1 : (16 * round + (r.val + 4 * c.val)) / 4 = 4 * round + c.val := by omega
  have e2 : (16 * round + (r.val + 4 * c.val)) % 4 = r.val := by omega
  simp only [W, e1, e2]

/-- From round `m` on. -/
theorem rounds_eq {key : Bytes} (h : key.length = 16) (x : Spec.Aes.State) (n : Nat) (hn : n < 10) :
    rounds (init key) 10 (Spec.Aes.ofState x) =
    rounds (init key) (10 - n) (Spec.Aes.ofState (Nat.rec x (fun m s =>
      Spec.Aes.mixColumns (Spec.Aes.shiftRows (Spec.Aes.subBytes (Spec.Aes.addRoundKey key m s)))) n)) := by
  induction n with
  | zero => rfl
  | succ n ih =>
    rw [ih (by omega)]
    obtain ⟨m, hm⟩ : ∃ m, 10 - n = m + 2 := ⟨8 - n, by omega⟩
    have hm' : 10 - (n + 1) = m + 1 := by omega
    rw [hm, hm']
    conv => lhs; rw [rounds]
    have e : 10 - (m + 1 + 1) = n := by omega
    simp only [e]
    rw [if_neg (by omega), subShift_eq _ _ _ rfl, toState_ofState, keyed_eq h n (by omega), mixColumns_eq]

theorem main_eq (key : Bytes) (x : Spec.Aes.State) (n : Nat) :
    Spec.Aes.mainRounds key n (Spec.Aes.addRoundKey key 0 x) =
    Spec.Aes.addRoundKey key n (Nat.rec x (fun m s =>
      Spec.Aes.mixColumns (Spec.Aes.shiftRows (Spec.Aes.subBytes (Spec.Aes.addRoundKey key m s)))) n) := by
  induction n with
  | zero => rfl
  | succ n ih => simp only [Spec.Aes.mainRounds, ih]

theorem ofState_toState {s : Bytes} (h : s.length = 16) :
    Spec.Aes.ofState (Spec.Aes.toState s) = s := by
  obtain ⟨a0, a1, a2, a3, a4, a5, a6, a7, a8, a9, a10, a11, a12, a13, a14, a15, rfl⟩ := len16 h
  rfl

theorem encrypt_eq {key s : Bytes} (hk : key.length = 16) (hs : s.length = 16) :
    encrypt key s = Spec.Aes.cipher key s := by
  conv => lhs; rw [encrypt, ← ofState_toState hs, rounds_eq hk _ 9 (by omega)]
  simp only [Spec.Aes.cipher]
  rw [main_eq, show 10 - 9 = 1 from rfl, rounds]
  simp only [show 10 - (0 + 1) = 9 from rfl]
  rw [if_pos (by trivial), subShift_eq _ _ _ rfl, toState_ofState, keyed_eq hk 9 (by omega), addKey_eq,
    show 16 * 9 + 16 = 16 * 10 from rfl, keyed_eq hk 10 (by omega)]

end LDL.Aes
