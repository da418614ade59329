import Verif.Card.Model
/-
Specification of the card deck interface: what a user sees by calling `stack_card`, `save_deck`,
`read_deck`, `read_card` and `blank_deck`.
-/
namespace Verif.Card

/-- A punched card: 80 columns of 12 bits. -/
def Card (m : Img) : Prop := m.length = 80 ∧ ∀ x ∈ m, x < 4096

/-- A new context (`init_card_context`) set to a format. -/
def fresh (mode : Mode) : Ctx := { mode := mode, images := [], cards := 0, pos := 0, out := none }

/-- Call `read_card` until it reports an empty hopper; the cards obtained. -/
def drain : Nat → Ctx → Res (List Img)
  | 0, _ => .fuel
  | n+1, c => do
    let r ← readCard c
    match r with
    | (none, _) => .ok []
    | (some m, c) => do
      let ms ← drain n c
      .ok (m :: ms)

/-- Call `stack_card` for each card. -/
def stackAll : Ctx → List Img → Res Ctx
  | c, [] => .ok c
  | c, m :: ms => do
    let c ← stackCard c m
    stackAll c ms

/-- The file written by stacking a deck and saving it. -/
def savedFile (mode : Mode) (deck : List Img) : Res (List Nat) := do
  let c ← stackAll (fresh mode) deck
  let c ← saveDeck c
  .ok (c.out.getD [])

/-- The cards obtained by loading a file into an empty hopper and reading until empty. -/
def loadedCards (n : Nat) (junk : Nat → Nat) (mode : Mode) (file : List Nat) : Res (List Img) := do
  let c ← readDeck n junk (fresh mode) file
  drain n c

/-- Stack a deck, save it, load the file in a new context in the same format, read all cards. -/
def roundTrip (n : Nat) (junk : Nat → Nat) (mode : Mode) (deck : List Img) : Res (List Img) := do
  let f ← savedFile mode deck
  loadedCards n junk mode f

/-- `deck` comes back as `deck'`, whatever the read buffer held before, in finitely many steps. -/
def ComesBackAs (mode : Mode) (deck deck' : List Img) : Prop :=
  ∃ n0, ∀ n, n0 ≤ n → ∀ junk, roundTrip n junk mode deck = .ok deck'

/-- Loading `file` into an empty hopper gives the cards `cards`. -/
def LoadsAs (mode : Mode) (file : List Nat) (cards : List Img) : Prop :=
  ∃ n0, ∀ n, n0 ≤ n → ∀ junk, loadedCards n junk mode file = .ok cards

/-! ### The hopper as a queue -/

inductive Op where
  | load (file : List Nat)
  | blanks (n : Nat)
  | stack (m : Img)
  | read
  | size
  | save
  | close
  | empty

/-- What a call shows its caller. -/
inductive Obs where
  | card (m : Option Img)
  | size (n : Nat)
deriving DecidableEq

/-- A call of the library; `n` bounds the load loop. -/
def opStep (n : Nat) (junk : Nat → Nat) (c : Ctx) : Op → Res (Ctx × Option Obs)
  | .load f => do let c ← readDeck n junk c f; .ok (c, none)
  | .blanks k => do let c ← blankDeck c k; .ok (c, none)
  | .stack m => do let c ← stackCard c m; .ok (c, none)
  | .read => do let (m, c) ← readCard c; .ok (c, some (.card m))
  | .size => .ok (c, some (.size (hopperSize c)))
  | .save => do let c ← saveDeck c; .ok (c, none)
  | .close => .ok (closeDeck c, none)
  | .empty => do let c ← emptyCards c; .ok (c, none)

def opRun (n : Nat) (junk : Nat → Nat) : Ctx → List Op → Res (List (Option Obs))
  | _, [] => .ok []
  | c, o :: os => do
    let (c, x) ← opStep n junk c o
    let xs ← opRun n junk c os
    .ok (x :: xs)

/-- The specification: a queue of cards and whether an output file is open.  With an output file
open every card goes to the file at once. -/
def specOp (cardsOf : List Nat → List Img) (q : List Img) (opened : Bool) : Op → List Img × Bool × Option Obs
  | .load f => (q ++ cardsOf f, false, none)
  | .blanks k => (q ++ List.replicate k (List.replicate 80 0), opened, none)
  | .stack m => (if opened then [] else q ++ [m], opened, none)
  | .read => (q.tail, opened, some (.card q.head?))
  | .size => (q, opened, some (.size q.length))
  | .save => ([], true, none)
  | .close => (q, false, none)
  | .empty => ([], opened, none)

def specOps (cardsOf : List Nat → List Img) : List Img → Bool → List Op → List (Option Obs)
  | _, _, [] => []
  | q, b, o :: os =>
    let (q', b', x) := specOp cardsOf q b o
    x :: specOps cardsOf q' b' os

/-- Requirements on a history: stacked cards are cards, loaded files load (in an empty hopper) as
`cardsOf` says, and `empty_cards` is not called while an output file is open (see
`C20_violated_empty_with_file`). -/
def OpPre (mode : Mode) (cardsOf : List Nat → List Img) (opened : Bool) : Op → Prop
  | .load f => LoadsAs mode f (cardsOf f)
  | .stack m => Card m
  | .empty => opened = false
  | _ => True

def OpsPre (mode : Mode) (cardsOf : List Nat → List Img) : List Img → Bool → List Op → Prop
  | _, _, [] => True
  | q, b, o :: os =>
    OpPre mode cardsOf b o ∧
      OpsPre mode cardsOf (specOp cardsOf q b o).1 (specOp cardsOf q b o).2.1 os

end Verif.Card
