import Verif.Model.Commands
import Verif.Props.MacCommands
import Verif.Lemmas.Answers

/-!
# Processing of downlink MAC commands as a fold over the commands of the specification's parser
-/

namespace LDL
open LDL.Stream LDL.MacCmd

def isADR : DownCmd → Bool
  | .linkADR .. => true
  | _ => false

/-- Whether a LinkADRReq comes next: the first of the list or, at its end, what is left of the input. -/
def nextADR (tail : Bool) : List DownCmd → Bool
  | [] => tail
  | c :: _ => isADR c

def runCommands (cfg : Cfg) (e : Env) (tail : Bool) : List DownCmd → Mac → AdrState → Mac × AdrState
  | [], m, a => (m, a)
  | c :: cs, m, a =>
    let r := applyCommand cfg e (nextADR tail cs) c m a
    runCommands cfg e tail cs r.1 r.2

theorem applyCommand_erase (cfg : Cfg) (e : Env) (b : Bool) {c c' : DownCmd} (h : eraseRejoin c = eraseRejoin c')
    (m : Mac) (a : AdrState) : applyCommand cfg e b c m a = applyCommand cfg e b c' m a := by
  cases c <;> cases c' <;> simp only [eraseRejoin] at h <;> first | (cases h; rfl) | cases h

theorem peek_adr {v11 : Bool} {s : Stream} {xs : Bytes} (h : At s xs) :
    (peekNextCommand v11 s == some .linkADR) = (xs.head? == some 3) := by
  have hl := h.length
  have hp := h.hp
  have hm := h.hm
  have h8 := h.h8
  have hx := h.hx
  unfold peekNextCommand Stream.peek
  rw [remaining_eq hp h8]
  rcases xs with _ | ⟨x, xs⟩
  · simp only [List.length_nil] at hl
    rw [if_neg (by omega)]; rfl
  · simp only [List.length_cons] at hl
    rw [if_pos (by omega)]
    have hg : s.mem.getD s.pos 0 = x := by
      have h1 := congrArg (fun l => l.getD 0 0) hx
      simp only [List.getD_cons_zero] at h1
      rw [List.getD_eq_getElem?_getD, List.getElem?_take, if_pos (by omega), List.getElem?_drop, Nat.add_zero] at h1
      rw [List.getD_eq_getElem?_getD, h1]
    simp only [hg, List.head?_cons]
    have key : ∀ (v : Bool) (k : Fin 256), (tagToType v k.val == some CmdType.linkADR) = decide (k.val = 3) := by
      decide +kernel
    rw [key v11 ⟨x.toNat, x.toNat_lt⟩]
    simp only []
    have : (x.toNat = 3) ↔ (some x == some (3 : UInt8)) = true := by
      rw [beq_iff_eq, Option.some.injEq]
      constructor
      · intro h; exact UInt8.toNat.inj h
      · intro h; rw [h]; rfl
    by_cases h3 : x.toNat = 3
    · rw [decide_eq_true h3, this.mp h3]
    · rw [decide_eq_false h3]
      symm
      apply Bool.eq_false_iff.mpr
      exact fun hc => h3 (this.mpr hc)

theorem nextCommand_adr {v11 : Bool} {xs r : Bytes} {c : DownCmd} (h : Spec.nextCommand v11 xs = some (c, r)) :
    isADR c = (xs.head? == some 3) := by
  rcases xs with _ | ⟨cid, bs⟩
  · cases h
  · simp only [List.head?_cons]
    have h3 : (some cid == some (3 : UInt8)) = decide (cid.toNat = 3) := by
      by_cases hc : cid.toNat = 3
      · have : cid = 3 := UInt8.toNat.inj hc
        subst this; rfl
      · rw [decide_eq_false hc]
        apply Bool.eq_false_iff.mpr
        intro h'
        rw [beq_iff_eq, Option.some.injEq] at h'
        subst h'
        exact hc rfl
    rw [h3]
    simp only [Spec.nextCommand] at h
    split at h <;>
      first
      | (cases h; simp only [isADR, *]; decide)
      | (split at h <;> first | (cases h; simp only [isADR, *]; decide) | cases h)
      | cases h

theorem commandLoop_run {cfg : Cfg} (e : Env) {n k : Nat} {s : Stream} {xs : Bytes} (h : At s xs) (m : Mac) (a : AdrState)
    (hn : xs.length < n) (hk : xs.length ≤ k) :
    commandLoop cfg e n s m a =
      runCommands cfg e ((Spec.leftoverAux cfg.v11 k xs).head? == some 3) (Spec.parseCommandsAux cfg.v11 k xs) m a := by
  induction n generalizing k s xs m a with
  | zero => omega
  | succ n ih =>
    have hs := step_all (v11 := cfg.v11) h
    unfold commandLoop
    rcases k with _ | k
    · have : xs = [] := List.length_eq_zero_iff.mp (by omega)
      subst this
      simp only [Step, Spec.nextCommand] at hs
      rcases hg : getDownCommand cfg.v11 s with ⟨c, s'⟩
      simp only [hg] at hs
      subst hs
      rfl
    · simp only [Step] at hs
      rcases hg : getDownCommand cfg.v11 s with ⟨c, s'⟩
      simp only [hg] at hs
      rcases hp : Spec.nextCommand cfg.v11 xs with _ | ⟨c', r⟩
      · simp only [hp] at hs
        subst hs
        simp [Spec.parseCommandsAux, hp, runCommands]
      · simp only [hp] at hs
        obtain ⟨c'', rfl, h2, h3, h4⟩ := hs
        simp only [Spec.parseCommandsAux, Spec.leftoverAux, hp, runCommands]
        have hnext : (peekNextCommand cfg.v11 s' == some .linkADR) =
            nextADR ((Spec.leftoverAux cfg.v11 k r).head? == some 3) (Spec.parseCommandsAux cfg.v11 k r) := by
          rw [peek_adr h3]
          rcases k with _ | k
          · have : r = [] := List.length_eq_zero_iff.mp (by omega)
            subst this; rfl
          · simp only [Spec.parseCommandsAux, Spec.leftoverAux]
            rcases hp' : Spec.nextCommand cfg.v11 r with _ | ⟨c3, r'⟩
            · rfl
            · exact (nextCommand_adr hp').symm
        rw [hnext, applyCommand_erase cfg e _ h2]
        exact ih h3 _ _ (by omega) (by omega)

/-- `processCommands` over the commands of the specification's parser. -/
theorem processCommands_run (cfg : Cfg) (e : Env) (m : Mac) (bs : Bytes) (h8 : bs.length ≤ 255) :
    processCommands cfg e m bs =
      let r := runCommands cfg e ((Spec.leftover cfg.v11 bs).head? == some 3) (Spec.parseCommands cfg.v11 bs)
        { m with ctx := { m.ctx with linkADRAns := { m.ctx.linkADRAns with channelMaskOK := true } } } .noAdr
      if r.2 = .bad then
        { r.1 with ctx := { r.1.ctx with
          chMask := m.ctx.chMask, rate := m.ctx.rate, power := m.ctx.power, nbTrans := m.ctx.nbTrans } }
      else r.1 := by
  unfold processCommands
  simp only []
  rw [commandLoop_run e (at_init bs h8) _ _ (Nat.lt_succ_self _) (Nat.le_refl _)]
  rfl

end LDL
