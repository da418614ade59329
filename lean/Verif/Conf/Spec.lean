import Verif.Conf.Model
/-! # What a configuration line means -/
namespace Verif.Conf

def hexDigit (c : Nat) : Nat := if c ≤ 57 then c - 48 else if c ≤ 70 then c - 55 else c - 87

/-- Value of a hexadecimal numeral, first digit most significant. -/
def hexNum : List Nat → Nat
  | [] => 0
  | c :: l => hexDigit c * 16 ^ l.length + hexNum l

/-- Value of a decimal numeral. -/
def decNum : List Nat → Nat
  | [] => 0
  | c :: l => (c - 48) * 10 ^ l.length + decNum l

/-- A value given to an option, as written. -/
inductive Val where
  | none
  | bare (w : List Nat)
  | quoted (w : List Nat)
deriving Repr, DecidableEq

/-- `NAME`, `NAME=value` or `NAME="value"`. -/
def written (name : List Nat) : Val → List Nat
  | .none => name
  | .bare w => name ++ 61 :: w
  | .quoted w => name ++ 61 :: 34 :: (w ++ [34])

/-- Names: 1 to 19 letters, digits or dashes.  Bare values have no blanks and do not begin with a quote or `#`.  Quoted
values contain no quote. -/
structure OkOpt (name : List Nat) (v : Val) : Prop where
  ne : name ≠ []
  len : name.length < 20
  chars : ∀ c ∈ name, isalnum c = true ∨ c = 45
  bare : ∀ w, v = .bare w → w.length < 1024 ∧ (∀ c ∈ w, isspace c = false ∧ c ≠ 0) ∧ w.head? ≠ some 34 ∧ w.head? ≠ some 35 ∧ w ≠ []
  quoted : ∀ w, v = .quoted w → w.length < 1024 ∧ 34 ∉ w

/-- What the parser should say about it: letters of names and of bare values are folded to upper case. -/
def meant (o : Opt) (name : List Nat) : Val → Opt
  | .none => { o with opt := name.map toupper, str := [], flags := 0 }
  | .bare w => { o with opt := name.map toupper, str := w.map toupper, flags := 1 }
  | .quoted w => { o with opt := name.map toupper, str := w, flags := 1 }

/-- A line of options: each preceded by blanks. -/
def lineOf : List (List Nat × List Nat × Val) → List Nat
  | [] => []
  | (ws, name, v) :: l => ws ++ written name v ++ lineOf l

/-- End of a line: blanks, then a comment or the end of the string. -/
def IsEnd (e : List Nat) : Prop :=
  ∃ ws c r, e = ws ++ c :: r ∧ (∀ x ∈ ws, isspace x = true) ∧ (c = 0 ∨ (c = 35 ∧ ws ≠ []))

/-- A device name as written: name, then optionally `-n`, then optionally `/n`. -/
def modelText (w : List Nat) (d e : Option (List Nat)) : List Nat :=
  w ++ (match d with | none => [] | some d => 45 :: d) ++ (match e with | none => [] | some e => 47 :: e)

/-- What it means: upper case; a single letter behind digits is the model letter. -/
def modelMeant (o : Opt) (w : List Nat) (d e : Option (List Nat)) : Opt :=
  let dash := d.elim o.dash decNum
  let slash := e.elim o.slash decNum
  let o := { o with flags := (if d.isSome then 1 else 0) + (if e.isSome then 2 else 0), dash := dash, slash := slash }
  if w.length ≥ 2 ∧ (∀ x ∈ w.dropLast, isdigit x = true) ∧ isalpha (w.getLastD 0) = true then
    { o with opt := w.dropLast, model := toupper (w.getLastD 0) }
  else { o with opt := w.map toupper }

def wordChar (c : Nat) : Prop := isalnum c = true ∨ c = 45 ∨ c = 47

/-- No 20 letters, digits, dashes or slashes in a row. -/
def Short (s : List Nat) : Prop := ∀ a w b, s = a ++ w ++ b → (∀ c ∈ w, wordChar c) → w.length < 20

end Verif.Conf
