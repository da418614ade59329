import Verif.Tape.Model
/-!
# What a tape is, without buffers and positions

A tape is a row of items: records of bytes and tape marks.  The drive stands between two items.
`image` is the published layout of an item in the host file (SIMH `.tap`, `.e11`, and `.p7b`).
-/
namespace Verif.Tape

inductive Item where
  | data (bs : List Nat)
  | mark
deriving Repr, DecidableEq

/-- A 32 bit number in four bytes, least significant first. -/
def le32 (n : Nat) : List Nat := (List.range 4).map fun i => n / 256 ^ i % 256

/-- Bytes of an item in the host file. -/
def image : Fmt → Item → List Nat
  | .tap, .data bs => le32 bs.length ++ bs ++ (if bs.length % 2 = 1 then [0] else []) ++ le32 bs.length
  | .e11, .data bs => le32 bs.length ++ bs ++ le32 bs.length
  | .p7b, .data [] => []
  | .p7b, .data (x :: l) => (x + 128) :: l
  | .other, _ => []
  | .p7b, .mark => [0x8f]
  | .tap, .mark => [0, 0, 0, 0]
  | .e11, .mark => [0, 0, 0, 0]

def images (f : Fmt) (l : List Item) : List Nat := l.flatMap (image f)

/-- Items a format can hold: records are not empty and shorter than 2³² − 1; bytes have 8 bits, frames of a P7B record
have 7 bits and the first one is not 017 (which with the record flag is the tape mark). -/
def Fits (f : Fmt) : Item → Prop
  | .mark => True
  | .data bs => bs ≠ [] ∧ bs.length < 4294967295 ∧
      if f = .p7b then (∀ x ∈ bs, x < 128) ∧ bs.head? ≠ some 0x0f else ∀ x ∈ bs, x < 256

/-! ## Calls a user of the drive makes -/

/-- Ask for `k` frames; status and, if the status is OK, the byte (0 otherwise). -/
def frames (junk : Nat) : Nat → Tape → Res (List (St × Nat) × Tape)
  | 0, t => .ok ([], t)
  | k + 1, t => do
    let (s, x, t) ← readFrame t junk
    let (l, t) ← frames junk k t
    .ok ((s, if s = .ok then x else 0) :: l, t)

/-- Write the frames of a record. -/
def putFrames : List Nat → Tape → Res (List St × Tape)
  | [], t => .ok ([], t)
  | x :: l, t => do
    let (s, t) ← writeFrame t x
    let (r, t) ← putFrames l t
    .ok (s :: r, t)

/-- tape_rewind_frames until it reports load point. -/
def rewindLoop (n : Nat) : Nat → Tape → Res Tape
  | 0, _ => .hang
  | fuel + 1, t =>
    match rewindFrames t n with
    | (.bot, t) => .ok t
    | (_, t) => rewindLoop n fuel t

inductive Op where
  /-- write an item -/
  | write (i : Item)
  /-- read forward: start, ask for `k` frames, finish the record (after a tape mark only if `fin`) -/
  | fwd (k : Nat) (fin : Bool)
  /-- the same backward -/
  | bwd (k : Nat) (fin : Bool)
  /-- start a rewind and move `n` frames at a time until load point -/
  | rewind (n : Nat)
deriving Repr

/-- What the caller sees. -/
inductive Obs where
  | wrote (l : List St)
  | read (start : St) (frames : List (St × Nat)) (finish : Option St)
  | rewound (s : St) (loadPoint : Bool)
deriving Repr, DecidableEq

def readOp (start : Tape → Res (St × Tape)) (fuel junk k : Nat) (fin : Bool) (t : Tape) : Res (Obs × Tape) := do
  let (s, t) ← start t
  if s = .ok then
    let (l, t) ← frames junk k t
    let (f, t) ← finishRec fuel junk t
    .ok (.read s l (some f), t)
  else if s = .mark then
    let (l, t) ← frames junk k t
    if fin then
      let (f, t) ← finishRec fuel junk t
      .ok (.read s l (some f), t)
    else .ok (.read s l none, t)
  else .ok (.read s [] none, t)

def opStep (fuel junk : Nat) : Op → Tape → Res (Obs × Tape)
  | .write .mark, t => do
    let (s, t) ← writeMark t
    .ok (.wrote [s], t)
  | .write (.data bs), t => do
    let (s, t) ← writeStart t
    let (l, t) ← putFrames bs t
    let (f, t) ← finishRec fuel junk t
    .ok (.wrote (s :: l ++ [f]), t)
  | .fwd k fin, t => readOp readForw fuel junk k fin t
  | .bwd k fin, t => readOp readBack fuel junk k fin t
  | .rewind n, t => do
    let (s, t) := startRewind t
    let t ← rewindLoop n fuel t
    .ok (.rewound s (atLoadpt t), t)

def opRun (fuel junk : Nat) : List Op → Tape → Res (List Obs × Tape)
  | [], t => .ok ([], t)
  | o :: l, t => do
    let (a, t) ← opStep fuel junk o t
    let (r, t) ← opRun fuel junk l t
    .ok (a :: r, t)

/-! ## What they should see -/

/-- `before`: items behind the head, nearest first.  `after`: items in front of it.  `isEnd`: nothing follows `after`
(otherwise unknown bytes do).  `eot`: end of tape was reported and the tape has not been read backward since.
`justRead`: the last call read forward successfully. -/
structure Z where
  before : List Item
  after : List Item
  isEnd : Bool
  eot : Bool
  justRead : Bool

def wroteAll : Item → Obs
  | .mark => .wrote [.ok]
  | .data bs => .wrote (List.replicate (bs.length + 2) .ok)

/-- `k` frames asked of a record holding `bs`. -/
def framesOf (bs : List Nat) (k : Nat) : List (St × Nat) :=
  (bs.take k).map (fun x => (.ok, x)) ++ List.replicate (k - bs.length) (.eob, 0)

def readItem (k : Nat) (fin : Bool) (rev : Bool) : Item → Obs
  | .mark => .read .mark (List.replicate k (.mark, 0)) (if fin then some .ok else none)
  | .data bs => .read .ok (framesOf (if rev then bs.reverse else bs) k) (some .ok)

def specStep (f : Fmt) : Op → Z → Obs × Z
  | .write i, z => (wroteAll i, { before := i :: z.before, after := [], isEnd := z.after.isEmpty && z.isEnd,
                                  eot := z.eot, justRead := false })
  | .fwd k fin, z =>
    match z.after with
    | [] => (.read .eot [] none, { z with eot := z.eot || f != .p7b, justRead := false })
    | i :: r => (readItem k fin false i, { z with before := i :: z.before, after := r, justRead := true })
  | .bwd k fin, z =>
    match z.before with
    | [] => (.read .bot [] none, { z with eot := false, justRead := false })
    | i :: r => (readItem k fin true i, { z with before := r, after := i :: z.after, eot := false, justRead := false })
  | .rewind _, z => (.rewound .ok true,
      { z with before := [], after := z.before.reverse ++ z.after, justRead := false })

def specRun (f : Fmt) : List Op → Z → List Obs × Z
  | [], z => ([], z)
  | o :: l, z =>
    let (a, z) := specStep f o z
    let (r, z) := specRun f l z
    (a :: r, z)

/-- When the description above applies. Writing needs the ring and an item the format can hold, and must not directly
follow a successful forward read.  Reading forward needs to know what follows; in the P7B format a record must be
followed by another item.  A rewind must not follow a reported end of tape, and moves at least one frame at a time. -/
def OpPre (f : Fmt) (ring : Bool) : Op → Z → Prop
  | .write i, z => ring = true ∧ Fits f i ∧ z.justRead = false
  | .fwd _ _, z => (z.after = [] → z.isEnd = true) ∧ (f = .p7b → ∀ bs, z.after ≠ [.data bs])
  | .bwd _ _, _ => True
  | .rewind n, z => z.eot = false ∧ 0 < n

def OpsPre (f : Fmt) (ring : Bool) : List Op → Z → Prop
  | [], _ => True
  | o :: l, z => OpPre f ring o z ∧ OpsPre f ring l (specStep f o z).2

end Verif.Tape
