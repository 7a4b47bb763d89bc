import Verif.Model.Spi

/-!
# What the drivers rely on when they access a chip over a shared bus
-/

namespace LDL
namespace Spec
namespace Spi
open LDL.Spi

/-- One access: the radio is selected at `selected`, found busy at the times `waited`, then either found ready at `found`
and the bytes transferred, or given up. -/
structure Transaction where
  radio : Nat
  access : Access
  /-- time of the call -/
  called : Nat
  selected : Nat
  waited : List Nat
  /-- time at which it was found ready; `none` if it was given up -/
  found : Option Nat
  deselected : Nat

/-- The bytes of an access: the opcode is written, then the payload written or read. -/
def bytes : Access → List Line
  | .write opcode data => [.out opcode, .out data]
  | .read opcode size => [.out opcode, .inp size]

/-- What is seen on the wires. -/
def Transaction.lines (t : Transaction) : List Line :=
  [.nss t.radio true t.selected] ++ t.waited.map (.sample t.radio true) ++
  (match t.found with
    | some at_ => .sample t.radio false at_ :: bytes t.access
    | none => []) ++
  [.nss t.radio false t.deselected]

/-- What is returned. -/
def Transaction.result (t : Transaction) : Result :=
  { radio := t.radio, access := t.access, started := t.called, retval := t.found.isSome }

/-- How long an access waits: it is given up at the first time the radio is found busy more than a second after the call,
and not before. -/
structure Transaction.Proper (t : Transaction) : Prop where
  patient : ∀ x ∈ t.waited, x ≤ t.called + 1000000 ∨ (t.found = none ∧ t.waited.getLast? = some x)
  gaveUp : t.found = none → ∃ x, t.waited.getLast? = some x ∧ t.called + 1000000 < x

/-- The selections a chip sees: the transfers made on the bus, by whomever, while its chip select line is low.  `cur` is
the selection it is in. -/
def selections (i : Nat) : Option (List Line) → List Line → List (List Line) × Option (List Line)
  | cur, [] => ([], cur)
  | cur, .nss j low _ :: rest =>
    if j = i then
      if low then selections i (some []) rest
      else
        let r := selections i none rest
        (match cur with | some c => c :: r.1 | none => r.1, r.2)
    else selections i cur rest
  | cur, .sample .. :: rest => selections i cur rest
  | cur, x :: rest => selections i (cur.map (· ++ [x])) rest

end Spi
end Spec
end LDL
