import Verif.Lemmas.Sx127xLoop
import Verif.Spec.Oscillator

/-!
# RegTcxo while the driver carries out a history
-/

namespace LDL
namespace Sx127x
open Spec (Phase accepts follow Fine)
open Spec.Sx127x

/-- The call leaves register `r` alone. -/
def avoids (r : Nat) : BusOp → Bool
  | .mode m => decide (m ≠ .reset)
  | .write op data => decide (op.length = 1 → (op.headD 0).toNat = 128 ∨ data.length = 1 ∧ (op.headD 0).toNat ≠ 128 + r)
  | .read .. => true

/-- The register and the reset values are the same. -/
def Alike (r : Nat) (c c' : Chip) : Prop := c'.common r = c.common r ∧ c'.defaults = c.defaults

theorem Alike.trans {r : Nat} {a b c : Chip} (h : Alike r a b) (h' : Alike r b c) : Alike r a c :=
  ⟨h'.1.trans h.1, h'.2.trans h.2⟩

theorem setReg_alike (c : Chip) (r a : Nat) (v : UInt8) (h : a ≠ r) : Alike r c (c.setReg a v) := by
  unfold Chip.setReg
  split
  · exact ⟨rfl, rfl⟩
  · split
    · split <;> exact ⟨rfl, rfl⟩
    · refine ⟨?_, rfl⟩
      show put c.common a v r = c.common r
      unfold put
      exact if_neg (fun h' => h (by first | exact h' | exact h'.symm))

theorem setFifo_alike (c : Chip) (r : Nat) (data : Bytes) : Alike r c (c.setFifo data) := by
  unfold Chip.setFifo
  split <;> exact ⟨rfl, rfl⟩

theorem exec_alike (c : Chip) (r : Nat) (op : BusOp) (h : avoids r op = true) : Alike r c (c.exec op) := by
  cases op with
  | mode m =>
    rw [exec_mode c m (of_decide_eq_true h)]
    exact ⟨rfl, rfl⟩
  | write op data =>
    have h := of_decide_eq_true h
    show Alike r c (if op.length = 1 then c.write (op.headD 0).toNat data else c)
    split
    · rename_i hl
      have h := h hl
      generalize (op.headD 0).toNat = n at h ⊢
      unfold Chip.write
      split
      · exact ⟨rfl, rfl⟩
      · split
        · exact setFifo_alike c r data
        · rcases h with h | ⟨h1, h2⟩
          · contradiction
          · match data, h1 with
            | [v], _ =>
              have : ([v] : Bytes).zipIdx = [(v, 0)] := rfl
              rw [this, List.foldl_cons, List.foldl_nil]
              exact setReg_alike c r _ v (by dsimp only; omega)
    · exact ⟨rfl, rfl⟩
  | read op size =>
    unfold Chip.exec
    dsimp only
    split
    · unfold Chip.read
      split <;> exact ⟨rfl, rfl⟩
    · exact ⟨rfl, rfl⟩

theorem run_alike (r : Nat) (ops : List BusOp) (h : ops.all (avoids r) = true) (c : Chip) : Alike r c (c.run ops) := by
  induction ops generalizing c with
  | nil => exact ⟨rfl, rfl⟩
  | cons op ops ih =>
    rw [List.all_cons, Bool.and_eq_true] at h
    rw [run_cons]
    exact (exec_alike c r op h.1).trans (ih h.2 _)

theorem avoids_writeReg (r a v : Nat) (h : (UInt8.ofNat (u8 a ||| 0x80)).toNat ≠ 128 + r) :
    avoids r (writeReg a v) = true := decide_eq_true fun _ => Or.inr ⟨rfl, h⟩

theorem avoids_fifo (r : Nat) (data : Bytes) : avoids r (burstWrite RegFifo data) = true := by
  unfold avoids burstWrite
  exact decide_eq_true fun _ => Or.inl (show (UInt8.ofNat (u8 RegFifo ||| 0x80)).toNat = 128 by decide)

theorem avoids_transmit (d : Driver) (s : TxSetting) (data : Bytes) (k : Kind) :
    (transmit d s data).all (avoids (tcxoReg k)) = true := by
  have h1 : ∀ x, (setPower d x).all (avoids (tcxoReg k)) = true := by
    intro x
    unfold setPower setPower1272 setPower1276
    dsimp only
    cases d.type <;> dsimp only <;> split <;>
      simp only [List.all_cons, List.all_nil, Bool.and_true, Bool.and_eq_true] <;>
      refine ⟨rfl, ?_, ?_⟩ <;> cases k <;> exact avoids_writeReg _ _ _ (by decide)
  have h2 : ∀ bw sf crc t, (modemConfig d bw sf crc t).all (avoids (tcxoReg k)) = true := by
    intro bw sf crc t
    unfold modemConfig modemConfig1272 modemConfig1276
    cases d.type <;> simp only [List.all_cons, List.all_nil, Bool.and_true, Bool.and_eq_true] <;>
      (repeat' constructor) <;> cases k <;> exact avoids_writeReg _ _ _ (by decide)
  unfold transmit setFreq setOpTX
  simp only [List.all_append, h1, h2, List.all_cons, List.all_nil, Bool.and_true, Bool.and_eq_true, avoids_fifo,
    Bool.true_and]
  (repeat' constructor) <;> cases k <;> exact avoids_writeReg _ _ _ (by decide)

theorem avoids_receive (d : Driver) (s : RxSetting) (k : Kind) : (receive d s).all (avoids (tcxoReg k)) = true := by
  have h2 : ∀ bw sf crc t, (modemConfig d bw sf crc t).all (avoids (tcxoReg k)) = true := by
    intro bw sf crc t
    unfold modemConfig modemConfig1272 modemConfig1276
    cases d.type <;> simp only [List.all_cons, List.all_nil, Bool.and_true, Bool.and_eq_true] <;>
      (repeat' constructor) <;> cases k <;> exact avoids_writeReg _ _ _ (by decide)
  unfold receive setFreq setOpRXSingle
  simp only [List.all_append, h2, List.all_cons, List.all_nil, Bool.and_true, Bool.and_eq_true]
  (repeat' constructor) <;> cases k <;> rfl

theorem avoids_receiveEntropy (d : Driver) (k : Kind) : (receiveEntropy d).all (avoids (tcxoReg k)) = true := by
  unfold receiveEntropy
  cases d.type <;> cases k <;> decide

theorem avoids_readEntropy (k : Kind) : readEntropyOps.all (avoids (tcxoReg k)) = true := by
  cases k <;> decide

theorem avoids_readBuffer (rd : Nat → UInt8) (n : Nat) (k : Kind) :
    (readBufferOps rd n).all (avoids (tcxoReg k)) = true := by
  unfold readBufferOps
  dsimp only
  split <;> simp only [List.all_append, List.all_cons, List.all_nil, Bool.and_true, Bool.and_eq_true] <;>
    (repeat' constructor) <;> cases k <;> rfl

/-- The register in a phase; `v` is its value after a reset. -/
structure Osc (v : UInt8) (c0 : Chip) (d : Driver) (c : Chip) (p : Phase) : Prop where
  defaults : c.defaults = c0.defaults
  reg : p ≠ .unknown → c.common (tcxoReg d.type) = v ∨ (d.xtal = .tcxo ∧ c.common (tcxoReg d.type) = v ||| 0x10)
  on : d.xtal = .tcxo → p ≠ .unknown → p ≠ .reset → p ≠ .boot → p ≠ .sleep → c.common (tcxoReg d.type) = v ||| 0x10

theorem or16 : ∀ v : UInt8, v.toNat &&& 0x10 > 0 → v ||| 0x10 = v := by
  have h : ∀ n : Fin 256, (UInt8.ofNat n.val).toNat &&& 0x10 > 0 → UInt8.ofNat n.val ||| 0x10 = UInt8.ofNat n.val := by
    decide +kernel
  intro v
  have := h ⟨v.toNat, v.toNat_lt⟩
  simpa using this

theorem ofNat_or16 : ∀ v : UInt8, UInt8.ofNat (v.toNat ||| 0x10) = v ||| 0x10 := by
  have h : ∀ n : Fin 256, UInt8.ofNat ((UInt8.ofNat n.val).toNat ||| 0x10) = UInt8.ofNat n.val ||| 0x10 := by
    decide +kernel
  intro v
  have := h ⟨v.toNat, v.toNat_lt⟩
  simpa using this

/-- Setting the bit. -/
theorem setXTAL_sets (d : Driver) (c : Chip) (hx : d.xtal = .tcxo) (hr : c.io ≠ .reset) (rd : Nat → UInt8)
    (hrd : rd (tcxoReg d.type) = c.common (tcxoReg d.type)) :
    (c.run (setXTAL d rd)).common (tcxoReg d.type) = c.common (tcxoReg d.type) ||| 0x10 ∧
      (c.run (setXTAL d rd)).defaults = c.defaults := by
  have key : ∀ r, r = SX1272RegTcxo ∨ r = SX1276RegTcxo → rd r = c.common r →
      (c.run (setXTALReg d r rd)).common r = c.common r ||| 0x10 ∧ (c.run (setXTALReg d r rd)).defaults = c.defaults := by
    intro r hr' hrd
    have h1 : Chip.paged r = false ∧ 1 < r ∧ r < 128 := by rcases hr' with rfl | rfl <;> decide
    obtain ⟨h1, h2, h3⟩ := h1
    unfold setXTALReg
    rw [hrd, hx]
    simp only [List.cons_append, List.nil_append, run_cons]
    rw [exec_readReg c r h3 (by omega)]
    split
    · rename_i h
      rw [if_neg (by decide), run_nil]
      exact ⟨(or16 _ h).symm, rfl⟩
    · rw [if_pos trivial, run_cons, run_nil, exec_common c r _ h1 h2 h3 hr, ofNat_or16]
      exact ⟨by show put c.common r _ r = _; simp [put], rfl⟩
  unfold setXTAL
  cases ht : d.type
  · rw [ht] at hrd; exact key _ (Or.inl rfl) hrd
  · rw [ht] at hrd; exact key _ (Or.inr rfl) hrd

theorem or16_or16 (v : UInt8) : v ||| 0x10 ||| 0x10 = v ||| 0x10 := by
  apply UInt8.toNat_inj.1
  simp [Nat.or_assoc]

/-- Making the radio ready. -/
theorem ready_sets {d : Driver} {c c0 : Chip} {p : Phase} {v : UInt8} (h : In d c p) (ho : Osc v c0 d c p)
    (hp : p = .sleep ∨ p = .hold) (mode : RadioMode) (hmo : mode = .rx ∨ mode = .tx) (ops : List BusOp)
    (hops : setModeOps d mode c.reg = some ops) :
    (c.run ops).defaults = c0.defaults ∧ (d.xtal = .tcxo → (c.run ops).common (tcxoReg d.type) = v ||| 0x10) ∧
      (d.xtal ≠ .tcxo → (c.run ops).common (tcxoReg d.type) = c.common (tcxoReg d.type)) := by
  have hmode := h.mode
  rcases hp with rfl | rfl
  · have : setModeOps d mode c.reg =
        some ([.mode .standby] ++ (if d.xtal = .tcxo then setXTAL d c.reg else []) ++ setOpStandby) := by
      unfold setModeOps
      rw [hmode]
      rcases hmo with rfl | rfl <;> rfl
    rw [this] at hops
    obtain rfl := Option.some.inj hops
    rw [run_append, run_append]
    have a3 : ∀ c1 : Chip, Alike (tcxoReg d.type) c1 (c1.run setOpStandby) :=
      fun c1 => run_alike _ _ (by cases d.type <;> decide) c1
    have h1 : c.run [.mode .standby] = { c with io := .standby } := by
      rw [run_cons, run_nil, exec_mode c .standby (by decide)]
    rw [h1]
    have hreg : c.reg (tcxoReg d.type) = c.common (tcxoReg d.type) := by cases d.type <;> rfl
    by_cases hx : d.xtal = .tcxo
    · rw [if_pos hx]
      obtain ⟨b1, b2⟩ := setXTAL_sets d { c with io := .standby } hx (show ChipMode.standby ≠ .reset by decide) c.reg hreg
      have a := a3 (({ c with io := .standby } : Chip).run (setXTAL d c.reg))
      refine ⟨a.2.trans (b2.trans ho.defaults), fun _ => a.1.trans (b1.trans ?_), fun h => absurd hx h⟩
      show c.common (tcxoReg d.type) ||| 0x10 = _
      rcases ho.reg (by decide) with h | ⟨_, h⟩
      · rw [h]
      · rw [h, or16_or16]
    · rw [if_neg hx]
      have a := a3 (({ c with io := .standby } : Chip).run [])
      exact ⟨a.2.trans ho.defaults, fun h => absurd h hx, fun _ => a.1⟩
  · have hav : ops.all (avoids (tcxoReg d.type)) = true := by
      have : setModeOps d mode c.reg = some (if d.xtal = .crystal then setOpStandby else []) := by
        unfold setModeOps
        rw [hmode]
        rcases hmo with rfl | rfl <;> rfl
      rw [this] at hops
      obtain rfl := Option.some.inj hops
      split
      · cases d.type <;> decide
      · rfl
    have a := run_alike _ _ hav c
    exact ⟨a.2.trans ho.defaults, fun hx => a.1.trans (ho.on hx (by decide) (by decide) (by decide) (by decide)), fun _ => a.1⟩

theorem Osc.alike {v : UInt8} {c0 c c' : Chip} {d d' : Driver} {p p' : Phase} (h : Osc v c0 d c p) (ht : d'.type = d.type)
    (hx : d'.xtal = d.xtal) (a : Alike (tcxoReg d.type) c c') (hu : p' ≠ .unknown → p ≠ .unknown)
    (hq : p' ≠ .unknown → p' ≠ .reset → p' ≠ .boot → p' ≠ .sleep → p ≠ .unknown ∧ p ≠ .reset ∧ p ≠ .boot ∧ p ≠ .sleep) :
    Osc v c0 d' c' p' := by
  refine ⟨a.2.trans h.defaults, ?_, ?_⟩
  · rw [ht, hx, a.1]
    exact fun h' => h.reg (hu h')
  · rw [ht, hx, a.1]
    intro h1 h2 h3 h4 h5
    obtain ⟨q1, q2, q3, q4⟩ := hq h2 h3 h4 h5
    exact h.on h1 q1 q2 q3 q4

/-- The calls other than `rx`, `tx` and `reset` leave the register alone. -/
theorem setMode_avoids (d : Driver) (mode : RadioMode) (rd : Nat → UInt8) (ops : List BusOp) (k : Kind)
    (h : setModeOps d mode rd = some ops) (hm : mode = .boot ∨ mode = .sleep ∨ mode = .hold) :
    ops.all (avoids (tcxoReg k)) = true := by
  unfold setModeOps at h
  rcases hm with rfl | rfl | rfl <;> cases hd : d.mode <;> rw [hd] at h <;> dsimp only at h <;>
    first
    | contradiction
    | (obtain rfl := Option.some.inj h; first
        | (cases k <;> decide)
        | (split <;> cases k <;> decide))

theorem Osc.event {v : UInt8} {c0 c c' : Chip} {d d' : Driver} {p p' : Phase} {ev : Event} (hv : v = c0.defaults (tcxoReg d.type))
    (hi : In d c p) (h : Osc v c0 d c p)
    (hacc : accepts p ev = some p') (hp : perform d c ev = some (d', c')) : Osc v c0 d' c' p' ∧ d'.type = d.type ∧ d'.xtal = d.xtal := by
  have quiet : ∀ ops : List BusOp, ops.all (avoids (tcxoReg d.type)) = true → perform d c ev = some (d, c.run ops) →
      (p' = p ∨ (p = .tx ∧ p' = .transmitting) ∨ (p = .rx ∧ p' = .receiving)) →
      Osc v c0 d' c' p' ∧ d'.type = d.type ∧ d'.xtal = d.xtal := by
    intro ops ha he hpp
    rw [he] at hp
    obtain ⟨rfl, rfl⟩ := Prod.mk.inj (Option.some.inj hp)
    refine ⟨h.alike rfl rfl (run_alike _ _ ha c) ?_ ?_, rfl, rfl⟩
    · rcases hpp with rfl | ⟨rfl, rfl⟩ | ⟨rfl, rfl⟩
      · exact id
      · exact fun _ => by decide
      · exact fun _ => by decide
    · rcases hpp with rfl | ⟨rfl, rfl⟩ | ⟨rfl, rfl⟩
      · exact fun a b c d => ⟨a, b, c, d⟩
      · exact fun _ _ _ _ => by decide
      · exact fun _ _ _ _ => by decide
  have same : ∀ (q : Prop) [Decidable q] (s : Phase), (if q then some s else none) = some p' → q ∧ p' = s := by
    intro q _ s hs
    split at hs
    · rename_i hq; exact ⟨hq, (Option.some.inj hs).symm⟩
    · contradiction
  have nothing : perform d c ev = some (d, c) → p' = p → Osc v c0 d' c' p' ∧ d'.type = d.type ∧ d'.xtal = d.xtal :=
    fun h1 h2 => quiet [] rfl h1 (Or.inl h2)
  cases ev
  case setMode mode =>
    have hp : (setMode d mode c.reg).map (fun x => (x.1, c.run x.2)) = some (d', c') := hp
    unfold setMode at hp
    cases hops : setModeOps d mode c.reg with
    | none => rw [hops] at hp; contradiction
    | some ops =>
      rw [hops] at hp
      obtain ⟨rfl, rfl⟩ := Prod.mk.inj (Option.some.inj hp)
      refine ⟨?_, rfl, rfl⟩
      cases mode with
      | reset =>
        obtain rfl := Option.some.inj hops
        obtain rfl := Option.some.inj hacc
        have : (c.run [.mode .reset]) = c.reset := rfl
        dsimp only
        rw [this]
        refine ⟨h.defaults, fun _ => Or.inl ?_, fun _ _ hh => absurd rfl hh⟩
        show c.defaults (tcxoReg d.type) = v
        rw [h.defaults, hv]
      | boot =>
        obtain ⟨q, rfl⟩ := same _ _ hacc
        exact h.alike rfl rfl (run_alike _ _ (setMode_avoids d _ _ _ _ hops (Or.inl rfl)) c) (fun _ => by rw [q]; decide)
          (fun _ _ h => absurd rfl h)
      | sleep =>
        have hacc : (if p = .reset ∨ p = .unknown then none else some Phase.sleep) = some p' := hacc
        split at hacc
        · contradiction
        · rename_i q
          obtain rfl := Option.some.inj hacc
          exact h.alike rfl rfl (run_alike _ _ (setMode_avoids d _ _ _ _ hops (Or.inr (Or.inl rfl))) c)
            (fun _ h => q (Or.inr h)) (fun _ _ _ h => absurd rfl h)
      | hold =>
        obtain ⟨q, rfl⟩ := same _ _ hacc
        refine h.alike rfl rfl (run_alike _ _ (setMode_avoids d _ _ _ _ hops (Or.inr (Or.inr rfl))) c) ?_ ?_
        · intro _; rcases q with rfl | rfl <;> decide
        · intro _ _ _ _; rcases q with rfl | rfl <;> decide
      | rx =>
        obtain ⟨q, rfl⟩ := same _ _ hacc
        obtain ⟨r1, r2, r3⟩ := ready_sets hi h q .rx (Or.inl rfl) ops hops
        refine ⟨r1, fun _ => ?_, fun hx _ _ _ _ => r2 hx⟩
        by_cases hx : d.xtal = .tcxo
        · exact Or.inr ⟨hx, r2 hx⟩
        · refine Or.inl ((r3 hx).trans ?_)
          rcases h.reg (by rcases q with rfl | rfl <;> decide) with h | h
          · exact h
          · exact absurd h.1 hx
      | tx =>
        obtain ⟨q, rfl⟩ := same _ _ hacc
        obtain ⟨r1, r2, r3⟩ := ready_sets hi h (Or.inl q) .tx (Or.inr rfl) ops hops
        refine ⟨r1, fun _ => ?_, fun hx _ _ _ _ => r2 hx⟩
        by_cases hx : d.xtal = .tcxo
        · exact Or.inr ⟨hx, r2 hx⟩
        · refine Or.inl ((r3 hx).trans ?_)
          rcases h.reg (by rw [q]; decide) with h | h
          · exact h
          · exact absurd h.1 hx
  case transmit t s data =>
    obtain ⟨q, hq⟩ := same _ _ hacc
    exact quiet _ (avoids_transmit d s data _) rfl (Or.inr (Or.inl ⟨q, hq⟩))
  case receive t s =>
    obtain ⟨q, hq⟩ := same _ _ hacc
    exact quiet _ (avoids_receive d s _) rfl (Or.inr (Or.inr ⟨q, hq⟩))
  case receiveEntropy =>
    obtain ⟨q, hq⟩ := same _ _ hacc
    exact quiet _ (avoids_receiveEntropy d _) rfl (Or.inr (Or.inr ⟨q, hq⟩))
  case readEntropy =>
    obtain ⟨q, hq⟩ := same _ _ hacc
    exact quiet _ (avoids_readEntropy _) rfl (Or.inl hq)
  case readBuffer =>
    obtain ⟨q, hq⟩ := same _ _ hacc
    exact quiet _ (avoids_readBuffer _ _ _) rfl (Or.inl hq)
  case getStatus =>
    obtain ⟨q, hq⟩ := same _ _ hacc
    exact quiet [readReg RegIrqFlags] rfl rfl (Or.inl hq)
  all_goals exact nothing rfl (Option.some.inj hacc).symm

theorem Osc.act {v : UInt8} {c0 c c' : Chip} {d : Driver} {p : Phase} (h : Osc v c0 d c p) (ha : c.Acts c') :
    Osc v c0 d c' p := by
  refine h.alike rfl rfl ?_ id fun a b c d => ⟨a, b, c, d⟩
  cases ha <;> exact ⟨rfl, rfl⟩

theorem plays_osc {d : Driver} {c : Chip} (h : In d c .unknown) {l : List Event} {d' : Driver} {c' : Chip}
    (hp : Plays d c l d' c') {p' : Phase} (hf : follow .unknown l = some p') (hfine : ∀ x ∈ l, Fine x) :
    Osc (c.defaults (tcxoReg d.type)) c d' c' p' := by
  induction hp generalizing p' with
  | start =>
    cases hf
    exact ⟨rfl, fun h => absurd rfl h, fun _ h => absurd rfl h⟩
  | acts _ ha ih => exact (ih hf hfine).act ha
  | event hp' ev he ih =>
    rw [follow_append] at hf
    obtain ⟨q, h1, h2⟩ := Option.bind_eq_some_iff.1 hf
    have hfine' := fun x hx => hfine x (List.mem_append_left _ hx)
    obtain ⟨h3, h4⟩ := plays_done h hp' h1 hfine'
    have ha : accepts q ev = some p' := by
      obtain ⟨q', g1, g2⟩ := Option.bind_eq_some_iff.1 h2
      cases g2
      exact g1
    exact ((ih h1 hfine').event (by rw [h4.same.1]) h3 ha he).1

/-- Once the radio has been reset, something is known of it. -/
theorem follow_known {p p' : Phase} {l : List Event} (hf : follow p l = some p')
    (h : p ≠ .unknown ∨ Event.setMode .reset ∈ l) : p' ≠ .unknown := by
  induction l generalizing p with
  | nil =>
    cases hf
    rcases h with h | h
    · exact h
    · cases h
  | cons ev l ih =>
    obtain ⟨q, h1, h2⟩ := Option.bind_eq_some_iff.1 hf
    refine ih h2 ?_
    rcases h with h | h
    · left
      intro hq
      subst hq
      revert h1
      unfold accepts
      split <;> (try split) <;> simp_all
    · rcases List.mem_cons.1 h with h | h
      · left
        rw [← h] at h1
        cases h1
        decide
      · exact Or.inr h

end Sx127x
end LDL
