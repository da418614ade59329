import Verif.Card.Tables
/-
Model of the card deck code, /repo/src/device/card.c and card.h.

Card images are lists of 80 column values.  A file is a list of bytes.  Logging and allocation
failure are dropped.  Every index into a table, the read buffer or a card image is checked;
a violation is `Res.oob`.  Loops carry a step bound; `Res.fuel` means the bound was reached.
-/
namespace Verif.Card

/-- Outcome of C code. -/
inductive Res (α : Type) where
  | ok (a : α)
  /-- access outside an array -/
  | oob
  /-- step bound reached -/
  | fuel
deriving Repr, DecidableEq

def Res.bind {α β : Type} (x : Res α) (f : α → Res β) : Res β :=
  match x with
  | .ok a => f a
  | .oob => .oob
  | .fuel => .fuel

instance : Monad Res where
  pure := Res.ok
  bind := Res.bind

@[simp] theorem Res.bind_ok {α β : Type} (a : α) (f : α → Res β) : ((Res.ok a : Res α) >>= f) = f a := rfl
@[simp] theorem Res.bind_oob {α β : Type} (f : α → Res β) : ((Res.oob : Res α) >>= f) = Res.oob := rfl
@[simp] theorem Res.bind_fuel {α β : Type} (f : α → Res β) : ((Res.fuel : Res α) >>= f) = Res.fuel := rfl
@[simp] theorem Res.pure_eq {α : Type} (a : α) : (pure a : Res α) = Res.ok a := rfl

/-- A checked table lookup. -/
def look (x : Option Nat) : Res Nat := match x with | some v => .ok v | none => .oob

/-- `MODE_*`, card.h 35-39. -/
inductive Mode where
  | auto | text | ebcdic | bin | octal
deriving DecidableEq, Repr

abbrev Img := List Nat

/-- Store one column, `(*image)[col] = v` on `uint16_t [80]`. -/
def setCol (img : Img) (col v : Nat) : Res Img := if col < img.length then .ok (img.set col v) else .oob

/-- Read one column. -/
def getCol (img : Img) (col : Nat) : Res Nat := look img[col]?

/-- `memset(image, 0, ...)`, card.c 348. -/
def blank : Img := List.replicate 80 0

/-! ### Reading -/

/-- Size of `_card_buffer.buffer`, card.c 319. -/
def bufSize : Nat := 8692

/-- `buf->buffer[i]`. -/
def rdB (mem : Nat → Nat) (i : Nat) : Res Nat := if i < bufSize then .ok (mem i) else .oob

def lf : Nat := 10
def cr : Nat := 13
def tab : Nat := 9
def sp : Nat := 32
def tilde : Nat := 126

/-- `tolower`. -/
def toLower (c : Nat) : Nat := if 65 ≤ c ∧ c ≤ 90 then c + 32 else c

/-- `_cmpcard`, card.c 326-336. -/
def cmpCard (mem : Nat → Nat) (a b c : Nat) : Bool :=
  mem 0 == tilde && toLower (mem 1) == a && toLower (mem 2) == b && toLower (mem 3) == c

/-- The scan of a card starting with `~`, card.c 374-396: true when only blanks follow. The
`\n` case sets `col` to 80 and then still executes `i++`. -/
def tildeScan (mem : Nat → Nat) (len : Nat) : Nat → Nat → Nat → Res (Bool × Nat)
  | 0, _, _ => .fuel
  | n+1, col, i =>
    if col < 80 ∧ i < len then do
      let c ← rdB mem i
      if c = lf ∨ c = 0 ∨ c = cr then tildeScan mem len n 80 (i + 1)
      else if c = sp then tildeScan mem len n col (i + 1)
      else if c = tab then tildeScan mem len n ((col ||| 7) + 1) (i + 1)
      else .ok (false, i + 1)
    else .ok (true, i)

/-- The `~raw` loop, card.c 397-413. -/
def rawLoop (mem : Nat → Nat) (len : Nat) : Nat → Nat → Nat → Nat → Img → Res (Nat × Img)
  | 0, _, _, _, _ => .fuel
  | n+1, col, j, i, img =>
    if col < 80 ∧ i < len then do
      let c ← rdB mem i
      if 48 ≤ c ∧ c ≤ 55 then do
        let v ← getCol img col
        let img ← setCol img col (((v <<< 3) % 65536) ||| (c - 48))
        if j + 1 = 4 then rawLoop mem len n (col + 1) 0 (i + 1) img
        else rawLoop mem len n col (j + 1) (i + 1) img
      else if c = lf ∨ c = cr then do
        let v ← getCol img 0
        let img ← setCol img 0 (v ||| 0xfff)
        if j = 4 then rawLoop mem len n (col + 1) 0 (i + 1) img
        else rawLoop mem len n col j (i + 1) img
      else .ok (i, img)
    else .ok (i, img)

/-- The text loop, card.c 427-448.  `c` is a signed `char`, so a byte of 0x80 or more is a negative
index into `ascii_to_hol_029`. -/
def textLoop (mem : Nat → Nat) (len : Nat) : Nat → Nat → Nat → Img → Res (Nat × Img)
  | 0, _, _, _ => .fuel
  | n+1, col, i, img =>
    if col < 80 ∧ i < len then do
      let c ← rdB mem i
      if c = 0 ∨ c = cr then textLoop mem len n col (i + 1) img
      else if c = tab then textLoop mem len n ((col ||| 7) + 1) (i + 1) img
      else if c = lf then textLoop mem len n 80 i img
      else do
        let t ← look (textToHol c)
        let img ← setCol img col t
        textLoop mem len n (col + 1) (i + 1) img
    else .ok (i, img)

/-- `while (buffer[i] != '\n' && buffer[i] != '\r' && i < len) i++`, card.c 454-456.  The byte is
read before the index is compared. -/
def lineEnd (mem : Nat → Nat) (len : Nat) : Nat → Nat → Res Nat
  | 0, _ => .fuel
  | n+1, i => do
    let c ← rdB mem i
    if c ≠ lf ∧ c ≠ cr ∧ i < len then lineEnd mem len n (i + 1) else .ok i

/-- The end of a text card from `end_card:` on, card.c 450-460: skip to the end of the line. -/
def endCard (mem : Nat → Nat) (len i : Nat) : Res Nat := do
  let i ← lineEnd mem len (len + 2) i
  let c ← rdB mem i
  let i := if c = cr then i + 1 else i
  let c ← rdB mem i
  .ok (if c = lf then i + 1 else i)

/-- Text card after the `~` blank test, card.c 397-449. -/
def textBody (mem : Nat → Nat) (len : Nat) : Res (Nat × Img) :=
  if cmpCard mem 114 97 119 then rawLoop mem len (len + 1) 0 0 4 blank
  else if cmpCard mem 101 111 114 then .ok (4, blank.set 0 0o7)
  else if cmpCard mem 101 111 102 then .ok (4, blank.set 0 0o15)
  else if cmpCard mem 101 111 105 then .ok (4, blank.set 0 0o17)
  else textLoop mem len (len + 2) 0 0 blank

/-- `case MODE_TEXT`, card.c 371-462: the image and the number of bytes used. -/
def parseText (mem : Nat → Nat) (len : Nat) : Res (Img × Nat) := do
  let sc ← if mem 0 = tilde then tildeScan mem len (len + 1) 1 1 else .ok (false, 0)
  if sc.1 then do
    let e ← endCard mem len sc.2
    .ok (blank, e)
  else do
    let (i, img) ← textBody mem len
    let e ← endCard mem len i
    .ok (img, e)

/-- The copy loop of `case MODE_BIN`, card.c 472-476: returns the image columns and the OR of the
even bytes.  The argument counts the columns still to read. -/
def binLoop (mem : Nat → Nat) : Nat → Nat → Nat → Res (List Nat × Nat)
  | 0, _, temp => .ok ([], temp)
  | n+1, i, temp => do
    let a ← rdB mem i
    let b ← rdB mem (i + 1)
    let (cols, t) ← binLoop mem n (i + 2) (temp ||| a)
    .ok ((((a >>> 4) &&& 0xf) ||| ((b &&& 0xff) <<< 4)) :: cols, t)

/-- `case MODE_BIN`, card.c 464-481; `none` for the size: `return` before `buf->size` is set. -/
def parseBin (mem : Nat → Nat) (len : Nat) : Res (Img × Option Nat) :=
  if len < 160 then .ok (blank.set 0 0xfff, none)
  else do
    let (img, t) ← binLoop mem 80 0 0
    .ok (if t &&& 0xf ≠ 0 then img.set 0 0xfff else img, some 160)

/-- The copy loop of `case MODE_EBCDIC`, card.c 488-491. -/
def ebcLoop (mem : Nat → Nat) (len : Nat) : Nat → Nat → Img → Res (Nat × Img)
  | 0, i, img => .ok (i, img)
  | n+1, i, img =>
    if i < len then do
      let c ← rdB mem i
      let t ← look (ebcdicToHol c)
      let img ← setCol img i t
      ebcLoop mem len n (i + 1) img
    else .ok (i, img)

/-- `case MODE_EBCDIC`, card.c 483-492. -/
def parseEbc (mem : Nat → Nat) (len : Nat) : Res (Img × Nat) := do
  let img := if len < 80 then blank.set 0 0xfff else blank
  let (i, img) ← ebcLoop mem len 80 0 img
  .ok (img, i)

/-- The scan of the automatic mode, card.c 353-355: OR of the even bytes and the final index. The
argument bounds the number of iterations (80 suffice). -/
def autoScan (mem : Nat → Nat) (len : Nat) : Nat → Nat → Nat → Res (Nat × Nat)
  | 0, i, temp => .ok (i, temp)
  | n+1, i, temp =>
    if i < 160 ∧ i < len then do
      let c ← rdB mem i
      autoScan mem len n (i + 2) (temp ||| c)
    else .ok (i, temp)

/-- The mode used for one card, card.c 350-367 (the inner comparison of `card_ctx->mode` is dead). -/
def cardMode (mode : Mode) (mem : Nat → Nat) (len : Nat) : Res Mode :=
  match mode with
  | .auto => do
    let (i, temp) ← autoScan mem len 81 0 0
    .ok (if temp &&& 0x0f = 0 ∧ i = 160 then .bin else .text)
  | m => .ok m

/-- `_parse_card`, card.c 339-496: the image and the new `buf->size` (`none`: left as it was). -/
def parseCard (mode : Mode) (mem : Nat → Nat) (len : Nat) : Res (Img × Option Nat) := do
  let m ← cardMode mode mem len
  match m with
  | .bin => parseBin mem len
  | .ebcdic => do let (img, i) ← parseEbc mem len; .ok (img, some i)
  | _ => do let (img, i) ← parseText mem len; .ok (img, some i)

/-! ### Punching -/

/-- Table lookup per column, `out[i] = hol_to_ascii_table[(*image)[i]]`. -/
def asciiCols : Img → Res (List Nat)
  | [] => .ok []
  | c :: cs => do
    let a ← look (holToAscii c)
    let r ← asciiCols cs
    .ok (a :: r)

/-- `while (outp > 0 && out[--outp] == ' ')`, card.c 548: the final `outp`. -/
def trim (out : List Nat) : Nat → Nat
  | 0 => 0
  | n+1 => if out[n]? = some sp then trim out n else n

/-- `case MODE_TEXT`, card.c 536-551. -/
def punchText (img : Img) : Res (List Nat) := do
  let out ← asciiCols img
  let out := out.map fun a => if a = 0xff then 63 else a
  .ok (out.take (trim out 80 + 1) ++ [lf])

/-- The search for the last punched column, card.c 556-559: `none` for -1. -/
def lastPunched (img : Img) : Nat → Option Nat
  | 0 => none
  | n+1 => if img[n]? ≠ some 0 then some n else lastPunched img n

/-- Four octal digits of a column, card.c 588-591. -/
def octCol (c : Nat) : List Nat :=
  [((c >>> 9) &&& 7) + 48, ((c >>> 6) &&& 7) + 48, ((c >>> 3) &&& 7) + 48, (c &&& 7) + 48]

/-- `case MODE_OCTAL`, card.c 553-595. -/
def punchOctal (img : Img) : Res (List Nat) := do
  let c0 ← getCol img 0
  let special := lastPunched img 80 = some 0
  if special ∧ c0 = 0o7 then .ok [tilde, 101, 111, 114, lf]
  else if special ∧ c0 = 0o15 then .ok [tilde, 101, 111, 102, lf]
  else if special ∧ c0 = 0o17 then .ok [tilde, 101, 111, 105, lf]
  else .ok ([tilde] ++ (if special then [101, 111] else []) ++ [114, 97, 119] ++ img.flatMap octCol ++ [lf])

/-- `case MODE_BIN`, card.c 598-605; `out` is `uint8_t`. -/
def punchBin (img : Img) : List Nat :=
  img.flatMap fun c => [((c &&& 0x00f) <<< 4) % 256, ((c &&& 0xff0) >>> 4) % 256]

/-- `case MODE_EBCDIC`, card.c 607-614. -/
def punchEbc : Img → Res (List Nat)
  | [] => .ok []
  | c :: cs => do
    let e ← look (holToEbcdic c)
    let r ← punchEbc cs
    .ok ((0xff &&& e) :: r)

/-- `_punch_card`, card.c 505-618: the bytes appended to the file. -/
def punchCard (mode : Mode) (img : Img) : Res (List Nat) :=
  match mode with
  | .auto => do
    let out ← asciiCols img
    if out.all (· ≠ 0xff) then punchText img else punchOctal img
  | .text => punchText img
  | .octal => punchOctal img
  | .bin => .ok (punchBin img)
  | .ebcdic => punchEbc img

/-! ### The hopper -/

/-- `struct card_context`, card.h 49-58.  `images` has `hopper_size` entries.  `out` is the content
of the file opened for writing, if any. -/
structure Ctx where
  mode   : Mode
  images : List Img
  cards  : Nat
  pos    : Nat
  out    : Option (List Nat)

/-- `init_card_context`, card.c 869-917. -/
def initCtx : Ctx := { mode := .auto, images := [], cards := 0, pos := 0, out := none }

/-- `(*card_ctx->images)[i]`. -/
def getImg (c : Ctx) (i : Nat) : Res Img := match c.images[i]? with | some m => .ok m | none => .oob

/-- Store an image. -/
def setImg (c : Ctx) (i : Nat) (m : Img) : Res Ctx :=
  if i < c.images.length then .ok { c with images := c.images.set i m } else .oob

/-- `DECK_SIZE`, card.h 47. -/
def deckSize : Nat := 1000

/-- Growing the hopper when it is full, card.c 674-688, 764-778, 793-807. -/
def grow (c : Ctx) : Ctx :=
  if c.cards ≥ c.images.length then { c with images := c.images ++ List.replicate deckSize blank } else c

/-- The move-down loop, card.c 653-656 and 753-757; `i` is the destination.  The first argument
bounds the loop by `hopper_cards`. -/
def moveLoop : Nat → Ctx → Nat → Res Ctx
  | 0, _, _ => .fuel
  | n+1, c, i =>
    if c.pos < c.cards then do
      let m ← getImg c c.pos
      let c ← setImg c i m
      moveLoop n { c with pos := c.pos + 1 } (i + 1)
    else .ok { c with cards := i, pos := 0 }

/-- card.c 651-660 and 751-760. -/
def moveDown (c : Ctx) : Res Ctx := if c.pos > 0 then moveLoop (c.cards + 1) c 0 else .ok c

/-- State of `read_deck`: hopper, buffer (`mem`, `len`, `size`), unread file content, end-of-file flag. -/
structure Rd where
  ctx  : Ctx
  mem  : Nat → Nat
  len  : Nat
  size : Nat
  rest : List Nat
  eof  : Bool

/-- The refill, card.c 666-672: `fread` of up to 8192 bytes, which sets end-of-file when it gets fewer. -/
def refill (s : Rd) : Rd :=
  if s.len < 500 ∧ s.eof = false then
    let l := (s.rest.take 8192)
    { s with
      mem := fun i => if s.len ≤ i ∧ i < s.len + l.length then l.getD (i - s.len) 0 else s.mem i
      len := s.len + l.length
      rest := s.rest.drop 8192
      eof := decide (s.rest.length < 8192) }
  else s

/-- One iteration of the loop of `read_deck`, card.c 663-701.  `buf.len -= buf.size` may go below
zero in C; the truncated difference is used since both end the loop. -/
def readStep (s : Rd) : Res Rd := do
  let s := refill s
  let c := grow s.ctx
  let (img, sz) ← parseCard c.mode s.mem s.len
  let c ← setImg c c.cards img
  let size := sz.getD s.size
  .ok { s with
    ctx := { c with cards := c.cards + 1 }
    mem := fun i => if i < s.len - size then s.mem (i + size) else s.mem i
    size := size
    len := s.len - size }

/-- `do ... while (buf.len > 0)`, card.c 663-701. -/
def readLoop : Nat → Rd → Res Ctx
  | 0, _ => .fuel
  | n+1, s => do
    let s ← readStep s
    if 0 < s.len then readLoop n s else .ok s.ctx

/-- `read_deck`, card.c 623-707, on a file with content `file`.  `junk` is what the uninitialised
buffer holds, `n` bounds the loop. -/
def readDeck (n : Nat) (junk : Nat → Nat) (c : Ctx) (file : List Nat) : Res Ctx := do
  let c ← moveDown c
  let c ← readLoop n { ctx := c, mem := fun i => if i = 0 then 0 else junk i, len := 0, size := 0, rest := file, eof := false }
  .ok { c with out := none }

/-- `read_card`, card.c 286-315: `none` when the hopper is empty.  The columns are looked up in
`hol_to_ebcdic_table` for logging, so an image value of 4096 or more is out of bounds. -/
def readCard (c : Ctx) : Res (Option Img × Ctx) :=
  if c.pos ≥ c.cards then .ok (none, c)
  else do
    let m ← getImg c c.pos
    let _ ← punchEbc m
    .ok (some m, { c with pos := c.pos + 1 })

/-- Punch all cards from `hopper_pos` on, card.c 811-815 and 841-843. -/
def punchLoop : Nat → Ctx → Res Ctx
  | 0, _ => .fuel
  | n+1, c =>
    if c.pos < c.cards then do
      let m ← getImg c c.pos
      let b ← punchCard c.mode m
      punchLoop n { c with pos := c.pos + 1, out := c.out.map (· ++ b) }
    else .ok c

/-- `stack_card`, card.c 789-817. -/
def stackCard (c : Ctx) (img : Img) : Res Ctx := do
  let c := grow c
  let c ← setImg c c.cards img
  let c := { c with cards := c.cards + 1 }
  match c.out with
  | some _ => punchLoop (c.cards + 1) c
  | none => .ok c

/-- `save_deck`, card.c 822-846: opens (and truncates) a new file and punches what is left. -/
def saveDeck (c : Ctx) : Res Ctx := punchLoop (c.cards + 1) { c with out := some [] }

/-- The loop of `blank_deck`, card.c 764-783. -/
def blankLoop : Nat → Ctx → Res Ctx
  | 0, c => .ok c
  | n+1, c => do
    let c := grow c
    let c ← setImg c c.cards blank
    blankLoop n { c with cards := c.cards + 1 }

/-- `blank_deck`, card.c 746-784. -/
def blankDeck (c : Ctx) (n : Nat) : Res Ctx := do
  let c ← moveDown c
  blankLoop n c

/-- The flush loop of `empty_cards`, card.c 717-719.  It punches the entry after the last card. -/
def emptyLoop : Nat → Ctx → Res Ctx
  | 0, _ => .fuel
  | n+1, c =>
    if c.pos < c.cards then do
      let m ← getImg c c.cards
      let b ← punchCard c.mode m
      emptyLoop n { c with pos := c.pos + 1, out := c.out.map (· ++ b) }
    else .ok c

/-- `empty_cards`, card.c 713-741. -/
def emptyCards (c : Ctx) : Res Ctx := do
  let c ← match c.out with
    | some _ => emptyLoop (c.cards + 1) c
    | none => .ok c
  let c := if c.images.length > deckSize then { c with images := List.replicate deckSize blank } else c
  .ok { c with pos := 0, cards := 0 }

/-- `hopper_size`, card.c 267-273. -/
def hopperSize (c : Ctx) : Nat := c.cards - c.pos
/-- `stack_size`, card.c 276-282. -/
def stackSize (c : Ctx) : Nat := c.cards

/-- `close_deck`, card.c 851-863. -/
def closeDeck (c : Ctx) : Ctx := { c with out := none }

end Verif.Card
