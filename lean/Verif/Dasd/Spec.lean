/-!
# What a count-key-data track looks like

Independent of the drive model: a track is its home address, then its records, then an end mark of four `FF` bytes.
-/
namespace Verif.Dasd.Spec

/-- One record: cylinder and head as written in its count field, record number, key and data. -/
structure Rec where
  cyl : Nat
  hd : Nat
  r : Nat
  key : List Nat
  data : List Nat
deriving Repr, DecidableEq

/-- The count field: two bytes each of cylinder and head, record number, key length, two bytes of data length. -/
def count (x : Rec) : List Nat :=
  [x.cyl / 256, x.cyl % 256, x.hd / 256, x.hd % 256, x.r, x.key.length, x.data.length / 256, x.data.length % 256]

/-- A record in the image: count, key, data. -/
def bytes (x : Rec) : List Nat := count x ++ x.key ++ x.data

/-- The home address: a flag byte, cylinder, head. -/
def home (cyl hd : Nat) : List Nat := [0, cyl / 256, cyl % 256, hd / 256, hd % 256]

def endMark : List Nat := [255, 255, 255, 255]

/-- A whole track: home address, records, end mark. -/
def track (cyl hd : Nat) (recs : List Rec) : List Nat := home cyl hd ++ recs.flatMap bytes ++ endMark

/-- Record zero of a formatted track: eight data bytes of zero. -/
def r0 (cyl hd : Nat) : Rec := ⟨cyl, hd, 0, [], List.replicate 8 0⟩

/-- The empty record one. -/
def r1 (cyl hd : Nat) : Rec := ⟨cyl, hd, 1, [], []⟩

end Verif.Dasd.Spec
