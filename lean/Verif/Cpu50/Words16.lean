import Verif.Cpu50.Words9

/-!
# Model 2050: words of the floating-point loads

Written by a script from the model itself; each lemma is the effect of one word of `/repo/src/model2050/ros.txt`
on the processor, with the text of the word as the listing names its fields.
-/

namespace Verif.Cpu50

attribute [local simp] exec needsChan front condA condB combine abBits nextBase leftBus leftIn rightBus rightIn uBus vBus ceB moverL moverR adCin ivStep smif dgStep cinW adder adStep lateB alStep ssEarly trStep protect ssLate wsStep wmStep upStep finish Out.bind ceBit fpStats Nat.testBit_eq_decide_div_mod_eq mov_whole

/-- Word 10c. -/
theorem w10c : ros 0x10c = {
      lu := 0, mv := 0, zp := 768, zf := 8, zn := 0, tr := 1, ws := 4, sf := 6, iv := 0, al := 20, wm := 0, up := 2,
      md := 0, lb := 0, mb := 0, dg := 2, ul := 1, ur := 1, ce := 2, lx := 0, tc := 0, ry := 0, ad := 4, ab := 0,
      bb := 0, ss := 39 } := by
  decide +kernel

/-- `10c qg010-j5 E=2 0-0>R AD:BC0 AL:SR4>F |U:0 V:0 W:U>WL,U>WR>0 |LS:FN,J>LSA LS>L>LS |DG:HOT1>ADDR |SS:E(23)->LSFN |A:0 B:0 Z:300 M(47)>>ROAR` -/
theorem x10c (e : Env) (ex : Bool) (s : S) :
    exec e (ros 0x10c) ex s = .ok { s with
      R := 0#32, L := s.LS (2#2 ++ s.J), alu := 0#32, aob := 0#32, u := 0#8, w := 0#8, F := loDig 0#32, EDST := 3#2,
      FN := 2#2, LSA := 2#2 ++ s.J, CAR := BitVec.msb (carriesOf 4294967295#32 0#32 0#32),
      ROAR := 768 ||| nib s.M 6 <<< 2 } := by
  rw [w10c]; simp

/-- Word 10d. -/
theorem w10d : ros 0x10d = {
      lu := 0, mv := 0, zp := 768, zf := 8, zn := 0, tr := 1, ws := 4, sf := 6, iv := 0, al := 20, wm := 0, up := 2,
      md := 0, lb := 0, mb := 0, dg := 2, ul := 1, ur := 1, ce := 2, lx := 0, tc := 0, ry := 0, ad := 4, ab := 0,
      bb := 0, ss := 39 } := by
  decide +kernel

/-- `10d qg010-j6 E=2 0-0>R AD:BC0 AL:SR4>F |U:0 V:0 W:U>WL,U>WR>0 |LS:FN,J>LSA LS>L>LS |DG:HOT1>ADDR |SS:E(23)->LSFN |A:0 B:0 Z:300 M(47)>>ROAR` -/
theorem x10d (e : Env) (ex : Bool) (s : S) :
    exec e (ros 0x10d) ex s = .ok { s with
      R := 0#32, L := s.LS (2#2 ++ s.J), alu := 0#32, aob := 0#32, u := 0#8, w := 0#8, F := loDig 0#32, EDST := 3#2,
      FN := 2#2, LSA := 2#2 ++ s.J, CAR := BitVec.msb (carriesOf 4294967295#32 0#32 0#32),
      ROAR := 768 ||| nib s.M 6 <<< 2 } := by
  rw [w10d]; simp

/-- Word 108. -/
theorem w108 : ros 0x108 = {
      lu := 0, mv := 0, zp := 768, zf := 8, zn := 0, tr := 1, ws := 4, sf := 6, iv := 0, al := 20, wm := 0, up := 2,
      md := 0, lb := 0, mb := 0, dg := 0, ul := 1, ur := 1, ce := 2, lx := 0, tc := 1, ry := 0, ad := 4, ab := 0,
      bb := 0, ss := 39 } := by
  decide +kernel

/-- `108 qg010-q5 E=2 0+0>R AD:BC0 AL:SR4>F |U:0 V:0 W:U>WL,U>WR>0 |LS:FN,J>LSA LS>L>LS |SS:E(23)->LSFN |A:0 B:0 Z:300 M(47)>>ROAR` -/
theorem x108 (e : Env) (ex : Bool) (s : S) :
    exec e (ros 0x108) ex s = .ok { s with
      R := 0#32, L := s.LS (2#2 ++ s.J), alu := 0#32, aob := 0#32, u := 0#8, w := 0#8, F := loDig 0#32, EDST := 3#2,
      FN := 2#2, LSA := 2#2 ++ s.J, CAR := BitVec.msb (carriesOf 0#32 0#32 0#32), ROAR := 768 ||| nib s.M 6 <<< 2 } := by
  rw [w108]; simp

/-- Word 109. -/
theorem w109 : ros 0x109 = {
      lu := 0, mv := 0, zp := 768, zf := 8, zn := 0, tr := 1, ws := 4, sf := 6, iv := 0, al := 20, wm := 0, up := 2,
      md := 0, lb := 0, mb := 0, dg := 0, ul := 1, ur := 1, ce := 2, lx := 0, tc := 1, ry := 0, ad := 4, ab := 0,
      bb := 0, ss := 39 } := by
  decide +kernel

/-- `109 qg010-q6 E=2 0+0>R AD:BC0 AL:SR4>F |U:0 V:0 W:U>WL,U>WR>0 |LS:FN,J>LSA LS>L>LS |SS:E(23)->LSFN |A:0 B:0 Z:300 M(47)>>ROAR` -/
theorem x109 (e : Env) (ex : Bool) (s : S) :
    exec e (ros 0x109) ex s = .ok { s with
      R := 0#32, L := s.LS (2#2 ++ s.J), alu := 0#32, aob := 0#32, u := 0#8, w := 0#8, F := loDig 0#32, EDST := 3#2,
      FN := 2#2, LSA := 2#2 ++ s.J, CAR := BitVec.msb (carriesOf 0#32 0#32 0#32), ROAR := 768 ||| nib s.M 6 <<< 2 } := by
  rw [w109]; simp

/-- Word 300. -/
theorem w300 : ros 0x300 = {
      lu := 0, mv := 0, zp := 832, zf := 0, zn := 3, tr := 7, ws := 6, sf := 5, iv := 0, al := 3, wm := 0, up := 2,
      md := 0, lb := 0, mb := 0, dg := 0, ul := 1, ur := 1, ce := 8, lx := 1, tc := 1, ry := 0, ad := 1, ab := 10,
      bb := 27, ss := 24 } := by
  decide +kernel

/-- `300 qg100-a2 E=8 0+L>L AL:+SGN>T |U:0 V:0 W:U>WL,U>WR>0 |LS:FN,MD>LSA LS>R,L>LS |SS:E>S47 |A:Carry B:MD/JI Z:340 A|(B=1)>A` -/
theorem x300 (e : Env) (ex : Bool) (s : S) :
    exec e (ros 0x300) ex s = .ok { s with
      R := s.LS (s.FN ++ s.MD), L := s.L &&& 2147483647#32, alu := s.L, aob := s.L &&& 2147483647#32, u := 0#8,
      w := 0#8, EDST := 3#2, LSA := s.FN ++ s.MD,
      St := { s.St with s4 := true, s5 := false, s6 := false, s7 := false },
      ROAR := 832 ||| 2 * (s.CAR || (s.MD &&& 9#4 != 0#4 || s.J &&& 9#4 != 0#4)).toNat + (s.MD &&& 9#4 != 0#4 || s.J &&& 9#4 != 0#4).toNat,
      LS := lsPut s.LS (s.FN ++ s.MD) (s.L &&& 2147483647#32) } := by
  rw [w300]; simp

/-- Word 304. -/
theorem w304 : ros 0x304 = {
      lu := 0, mv := 0, zp := 832, zf := 0, zn := 3, tr := 7, ws := 6, sf := 5, iv := 0, al := 4, wm := 0, up := 2,
      md := 0, lb := 0, mb := 0, dg := 0, ul := 1, ur := 1, ce := 0, lx := 1, tc := 1, ry := 0, ad := 1, ab := 10,
      bb := 27, ss := 24 } := by
  decide +kernel

/-- `304 qg100-e2 E=0 0+L>L AL:-SGN>T |U:0 V:0 W:U>WL,U>WR>0 |LS:FN,MD>LSA LS>R,L>LS |SS:E>S47 |A:Carry B:MD/JI Z:340 A|(B=1)>A` -/
theorem x304 (e : Env) (ex : Bool) (s : S) :
    exec e (ros 0x304) ex s = .ok { s with
      R := s.LS (s.FN ++ s.MD), L := s.L ||| 2147483648#32, alu := s.L, aob := s.L ||| 2147483648#32, u := 0#8,
      w := 0#8, EDST := 3#2, LSA := s.FN ++ s.MD,
      St := { s.St with s4 := false, s5 := false, s6 := false, s7 := false },
      ROAR := 832 ||| 2 * (s.CAR || (s.MD &&& 9#4 != 0#4 || s.J &&& 9#4 != 0#4)).toNat + (s.MD &&& 9#4 != 0#4 || s.J &&& 9#4 != 0#4).toNat,
      LS := lsPut s.LS (s.FN ++ s.MD) (s.L ||| 2147483648#32) } := by
  rw [w304]; simp

/-- Word 308. -/
theorem w308 : ros 0x308 = {
      lu := 0, mv := 0, zp := 384, zf := 15, zn := 4, tr := 0, ws := 4, sf := 7, iv := 0, al := 0, wm := 0, up := 2,
      md := 0, lb := 0, mb := 0, dg := 0, ul := 1, ur := 1, ce := 0, lx := 0, tc := 1, ry := 0, ad := 1, ab := 31,
      bb := 1, ss := 0 } := by
  decide +kernel

/-- `308 qg100-j2 E=0 0+0>T |U:0 V:0 W:U>WL,U>WR>0 |LS:FN,J>LSA 7 |A:L(0) B:1 Z:1bc ` -/
theorem x308 (e : Env) (ex : Bool) (s : S) :
    exec e (ros 0x308) ex s = .ok { s with
      alu := 0#32, aob := 0#32, u := 0#8, w := 0#8, EDST := 3#2, LSA := s.FN ++ s.J,
      ROAR := 444 ||| 2 * (BitVec.msb s.L).toNat + 1 } := by
  rw [w308]; simp

/-- Word 30c. -/
theorem w30c : ros 0x30c = {
      lu := 0, mv := 0, zp := 2496, zf := 4, zn := 4, tr := 0, ws := 4, sf := 7, iv := 0, al := 0, wm := 0, up := 2,
      md := 0, lb := 0, mb := 0, dg := 0, ul := 1, ur := 1, ce := 0, lx := 0, tc := 1, ry := 0, ad := 1, ab := 31,
      bb := 1, ss := 0 } := by
  decide +kernel

/-- `30c qg100-n2 E=0 0+0>T |U:0 V:0 W:U>WL,U>WR>0 |LS:FN,J>LSA 7 |A:L(0) B:1 Z:9d0 ` -/
theorem x30c (e : Env) (ex : Bool) (s : S) :
    exec e (ros 0x30c) ex s = .ok { s with
      alu := 0#32, aob := 0#32, u := 0#8, w := 0#8, EDST := 3#2, LSA := s.FN ++ s.J,
      ROAR := 2512 ||| 2 * (BitVec.msb s.L).toNat + 1 } := by
  rw [w30c]; simp

/-- Word 320. -/
theorem w320 : ros 0x320 = {
      lu := 0, mv := 0, zp := 832, zf := 3, zn := 3, tr := 0, ws := 6, sf := 5, iv := 0, al := 0, wm := 0, up := 2,
      md := 0, lb := 0, mb := 0, dg := 0, ul := 1, ur := 1, ce := 0, lx := 1, tc := 1, ry := 0, ad := 1, ab := 10,
      bb := 27, ss := 0 } := by
  decide +kernel

/-- `320 qg300-a2 E=0 0+L>T |U:0 V:0 W:U>WL,U>WR>0 |LS:FN,MD>LSA LS>R,L>LS |A:Carry B:MD/JI Z:34c A|(B=1)>A` -/
theorem x320 (e : Env) (ex : Bool) (s : S) :
    exec e (ros 0x320) ex s = .ok { s with
      R := s.LS (s.FN ++ s.MD), alu := s.L, aob := s.L, u := 0#8, w := 0#8, EDST := 3#2, LSA := s.FN ++ s.MD,
      ROAR := 844 ||| 2 * (s.CAR || (s.MD &&& 9#4 != 0#4 || s.J &&& 9#4 != 0#4)).toNat + (s.MD &&& 9#4 != 0#4 || s.J &&& 9#4 != 0#4).toNat,
      LS := lsPut s.LS (s.FN ++ s.MD) s.L } := by
  rw [w320]; simp

/-- Word 340. -/
theorem w340 : ros 0x340 = {
      lu := 0, mv := 0, zp := 832, zf := 2, zn := 4, tr := 0, ws := 5, sf := 6, iv := 0, al := 0, wm := 0, up := 2,
      md := 0, lb := 0, mb := 0, dg := 2, ul := 1, ur := 1, ce := 0, lx := 1, tc := 0, ry := 0, ad := 7, ab := 0,
      bb := 1, ss := 44 } := by
  decide +kernel

/-- `340 qg100-a5 E=0 0-L>T AD:BC8 |U:0 V:0 W:U>WL,U>WR>0 |LS:FN,J|1>LSA LS>L>LS |DG:HOT1>ADDR |SS:S4,!S4->CR |A:0 B:1 Z:348 ` -/
theorem x340 (e : Env) (ex : Bool) (s : S) :
    exec e (ros 0x340) ex s = .ok { s with
      L := s.LS (s.FN ++ (s.J ||| 1#4)), alu := topSum (~~~s.L) (0#32) (~~~s.L + 1#32) 0#32,
      aob := topSum (~~~s.L) (0#32) (~~~s.L + 1#32) 0#32, u := 0#8, w := 0#8, EDST := 3#2,
      CC := if s.St.s4 = true then 2#2 else 1#2, LSA := s.FN ++ (s.J ||| 1#4),
      CAR := carriesOf (~~~s.L) (0#32) (topSum (~~~s.L) (0#32) (~~~s.L + 1#32) 0#32) &&& 8388608#32 != 0#32,
      ROAR := 0x349 } := by
  rw [w340]; simp

/-- Word 342. -/
theorem w342 : ros 0x342 = {
      lu := 0, mv := 0, zp := 832, zf := 1, zn := 4, tr := 0, ws := 4, sf := 7, iv := 0, al := 0, wm := 0, up := 2,
      md := 0, lb := 0, mb := 0, dg := 0, ul := 1, ur := 1, ce := 0, lx := 0, tc := 1, ry := 0, ad := 1, ab := 1,
      bb := 15, ss := 44 } := by
  decide +kernel

/-- `342 qg100-j5 E=0 0+0>T |U:0 V:0 W:U>WL,U>WR>0 |LS:FN,J>LSA 7 |SS:S4,!S4->CR |A:1 B:T13=0 Z:344 ` -/
theorem x342 (e : Env) (ex : Bool) (s : S) :
    exec e (ros 0x342) ex s = .ok { s with
      alu := 0#32, aob := 0#32, u := 0#8, w := 0#8, EDST := 3#2, CC := if s.St.s4 = true then 2#2 else 1#2,
      LSA := s.FN ++ s.J, ROAR := 836 ||| 2 + (s.aob &&& 16777215#32 == 0#32).toNat } := by
  rw [w342]; simp

/-- Word 343. -/
theorem w343 : ros 0x343 = {
      lu := 0, mv := 0, zp := 384, zf := 5, zn := 4, tr := 0, ws := 6, sf := 0, iv := 0, al := 0, wm := 15, up := 2,
      md := 0, lb := 0, mb := 0, dg := 0, ul := 1, ur := 0, ce := 6, lx := 0, tc := 1, ry := 0, ad := 1, ab := 0,
      bb := 1, ss := 0 } := by
  decide +kernel

/-- `343 qg100-n5 E=6 0+0>T |U:0 V:0 W:U>WL,E>WR>W>MD,F |LS:FN,MD>LSA R>LS |A:0 B:1 Z:194 ` -/
theorem x343 (e : Env) (ex : Bool) (s : S) :
    exec e (ros 0x343) ex s = .ok { s with
      alu := 0#32, aob := 0#32, u := 0#8, w := 6#8, F := 6#8, MD := 0#4, EDST := 3#2, LSA := s.FN ++ s.MD,
      ROAR := 0x195, LS := lsPut s.LS (s.FN ++ s.MD) s.R } := by
  rw [w343]; simp

/-- Word 345. -/
theorem w345 : ros 0x345 = {
      lu := 0, mv := 0, zp := 320, zf := 2, zn := 4, tr := 0, ws := 3, sf := 6, iv := 7, al := 0, wm := 0, up := 2,
      md := 0, lb := 0, mb := 0, dg := 0, ul := 1, ur := 1, ce := 14, lx := 0, tc := 1, ry := 0, ad := 1, ab := 56,
      bb := 0, ss := 24 } := by
  decide +kernel

/-- `345 qg100-e8 E=e 0+0>T |U:0 V:0 W:U>WL,U>WR>0 |LS:WS,E>LSA LS>L>LS |IV:IA+0/2>A |SS:E>S47 |A:I-FETCH B:0 Z:148 ` -/
theorem x345 (e : Env) (ex : Bool) (s : S) :
    exec e (ros 0x345) ex s = .ok { s with
      L := s.LS 30#6, SAR := ifAddr s.REFETCH s.IA, alu := 0#32, aob := 0#32, u := 0#8, w := 0#8, EDST := 3#2,
      LSA := 30#6, St := { s.St with s4 := true, s5 := true, s6 := true, s7 := false },
      IVA := s.IVA || decide (e.memMax < ifAddr s.REFETCH s.IA),
      initMem := s.initMem || !decide (e.memMax < ifAddr s.REFETCH s.IA),
      ROAR := 328 ||| 2 * (ex || s.IA &&& 2#32 == 0#32).toNat + (ex || s.IA &&& 2#32 != 0#32 && s.REFETCH).toNat } := by
  rw [w345]; simp

/-- Word 346. -/
theorem w346 : ros 0x346 = {
      lu := 0, mv := 0, zp := 320, zf := 2, zn := 4, tr := 0, ws := 3, sf := 6, iv := 7, al := 0, wm := 0, up := 2,
      md := 0, lb := 0, mb := 0, dg := 0, ul := 1, ur := 1, ce := 14, lx := 0, tc := 1, ry := 0, ad := 1, ab := 56,
      bb := 0, ss := 24 } := by
  decide +kernel

/-- `346 qg100-j8 E=e 0+0>T |U:0 V:0 W:U>WL,U>WR>0 |LS:WS,E>LSA LS>L>LS |IV:IA+0/2>A |SS:E>S47 |A:I-FETCH B:0 Z:148 ` -/
theorem x346 (e : Env) (ex : Bool) (s : S) :
    exec e (ros 0x346) ex s = .ok { s with
      L := s.LS 30#6, SAR := ifAddr s.REFETCH s.IA, alu := 0#32, aob := 0#32, u := 0#8, w := 0#8, EDST := 3#2,
      LSA := 30#6, St := { s.St with s4 := true, s5 := true, s6 := true, s7 := false },
      IVA := s.IVA || decide (e.memMax < ifAddr s.REFETCH s.IA),
      initMem := s.initMem || !decide (e.memMax < ifAddr s.REFETCH s.IA),
      ROAR := 328 ||| 2 * (ex || s.IA &&& 2#32 == 0#32).toNat + (ex || s.IA &&& 2#32 != 0#32 && s.REFETCH).toNat } := by
  rw [w346]; simp

/-- Word 347. -/
theorem w347 : ros 0x347 = {
      lu := 0, mv := 0, zp := 320, zf := 1, zn := 1, tr := 0, ws := 4, sf := 7, iv := 7, al := 0, wm := 0, up := 2,
      md := 0, lb := 0, mb := 0, dg := 0, ul := 1, ur := 1, ce := 0, lx := 0, tc := 1, ry := 0, ad := 1, ab := 56,
      bb := 0, ss := 40 } := by
  decide +kernel

/-- `347 qg100-n8 E=0 0+0>T |U:0 V:0 W:U>WL,U>WR>0 |LS:FN,J>LSA 7 |IV:IA+0/2>A |SS:E(23)->CR |A:I-FETCH B:0 Z:144 SMIF` -/
theorem x347 (e : Env) (ex : Bool) (s : S) :
    exec e (ros 0x347) ex s = .ok { s with
      SAR := if s.REFETCH = false ∧ ¬s.IA &&& 2#32 = 0#32 then s.SAR else ifAddr s.REFETCH s.IA, alu := 0#32,
      aob := 0#32, u := 0#8, w := 0#8, EDST := 3#2, CC := 0#2, LSA := s.FN ++ s.J,
      IVA := s.IVA || (s.REFETCH || !s.IA &&& 2#32 != 0#32) && decide (e.memMax < ifAddr s.REFETCH s.IA),
      initMem := s.initMem || (s.REFETCH || !s.IA &&& 2#32 != 0#32) && !decide (e.memMax < ifAddr s.REFETCH s.IA),
      ROAR := 324 ||| 2 * (ex || s.IA &&& 2#32 == 0#32).toNat + (ex || s.IA &&& 2#32 != 0#32 && s.REFETCH).toNat } := by
  rw [w347]; simp

/-- Word 349. -/
theorem w349 : ros 0x349 = {
      lu := 0, mv := 0, zp := 832, zf := 1, zn := 6, tr := 0, ws := 7, sf := 4, iv := 0, al := 0, wm := 0, up := 2,
      md := 0, lb := 0, mb := 0, dg := 2, ul := 1, ur := 1, ce := 0, lx := 1, tc := 0, ry := 0, ad := 4, ab := 10,
      bb := 30, ss := 0 } := by
  decide +kernel

/-- `349 qg100-a6 E=0 0-L>T AD:BC0 |U:0 V:0 W:U>WL,U>WR>0 |LS:FN,MD|1>LSA L>LS |DG:HOT1>ADDR |A:Carry B:(CAR) Z:344 B|(A=0)>B` -/
theorem x349 (e : Env) (ex : Bool) (s : S) :
    exec e (ros 0x349) ex s = .ok { s with
      alu := ~~~s.L + 1#32, aob := ~~~s.L + 1#32, u := 0#8, w := 0#8, EDST := 3#2, LSA := s.FN ++ (s.MD ||| 1#4),
      CAR := BitVec.msb (carriesOf (~~~s.L) (0#32) (~~~s.L + 1#32)),
      ROAR := (836 ||| 2 * s.CAR.toNat + (!s.CAR).toNat) / 4 * 4 ||| 2 * s.CAR.toNat + (!s.CAR || BitVec.msb (carriesOf (~~~s.L) (0#32) (~~~s.L + 1#32)) || !s.CAR).toNat,
      LS := lsPut s.LS (s.FN ++ (s.MD ||| 1#4)) s.L } := by
  rw [w349]; simp

/-- Word 34c. -/
theorem w34c : ros 0x34c = {
      lu := 0, mv := 0, zp := 640, zf := 8, zn := 4, tr := 0, ws := 5, sf := 6, iv := 0, al := 0, wm := 0, up := 3,
      md := 1, lb := 0, mb := 0, dg := 0, ul := 1, ur := 1, ce := 0, lx := 0, tc := 1, ry := 0, ad := 1, ab := 0,
      bb := 0, ss := 0 } := by
  decide +kernel

/-- `34c qg300-c6 E=0 0+0>T |U:0 V:0 W:U>WL,U>WR>0 |LS:FN,J|1>LSA LS>L>LS |CNTmd+ |A:0 B:0 Z:2a0 ` -/
theorem x34c (e : Env) (ex : Bool) (s : S) :
    exec e (ros 0x34c) ex s = .ok { s with
      L := s.LS (s.FN ++ (s.J ||| 1#4)), alu := 0#32, aob := 0#32, u := 0#8, w := 0#8, MD := s.MD + 1#4, EDST := 3#2,
      LSA := s.FN ++ (s.J ||| 1#4), ROAR := 0x2a0 } := by
  rw [w34c]; simp

/-- Word 34e. -/
theorem w34e : ros 0x34e = {
      lu := 0, mv := 0, zp := 320, zf := 2, zn := 4, tr := 0, ws := 3, sf := 6, iv := 7, al := 0, wm := 0, up := 2,
      md := 0, lb := 0, mb := 0, dg := 0, ul := 1, ur := 1, ce := 14, lx := 0, tc := 1, ry := 0, ad := 1, ab := 56,
      bb := 0, ss := 24 } := by
  decide +kernel

/-- `34e qg300-q3 E=e 0+0>T |U:0 V:0 W:U>WL,U>WR>0 |LS:WS,E>LSA LS>L>LS |IV:IA+0/2>A |SS:E>S47 |A:I-FETCH B:0 Z:148 ` -/
theorem x34e (e : Env) (ex : Bool) (s : S) :
    exec e (ros 0x34e) ex s = .ok { s with
      L := s.LS 30#6, SAR := ifAddr s.REFETCH s.IA, alu := 0#32, aob := 0#32, u := 0#8, w := 0#8, EDST := 3#2,
      LSA := 30#6, St := { s.St with s4 := true, s5 := true, s6 := true, s7 := false },
      IVA := s.IVA || decide (e.memMax < ifAddr s.REFETCH s.IA),
      initMem := s.initMem || !decide (e.memMax < ifAddr s.REFETCH s.IA),
      ROAR := 328 ||| 2 * (ex || s.IA &&& 2#32 == 0#32).toNat + (ex || s.IA &&& 2#32 != 0#32 && s.REFETCH).toNat } := by
  rw [w34e]; simp

/-- Word 34f. -/
theorem w34f : ros 0x34f = {
      lu := 0, mv := 0, zp := 384, zf := 5, zn := 4, tr := 0, ws := 6, sf := 0, iv := 0, al := 0, wm := 15, up := 2,
      md := 0, lb := 0, mb := 0, dg := 0, ul := 1, ur := 0, ce := 6, lx := 0, tc := 1, ry := 0, ad := 1, ab := 0,
      bb := 1, ss := 0 } := by
  decide +kernel

/-- `34f qg300-c3 E=6 0+0>T |U:0 V:0 W:U>WL,E>WR>W>MD,F |LS:FN,MD>LSA R>LS |A:0 B:1 Z:194 ` -/
theorem x34f (e : Env) (ex : Bool) (s : S) :
    exec e (ros 0x34f) ex s = .ok { s with
      alu := 0#32, aob := 0#32, u := 0#8, w := 6#8, F := 6#8, MD := 0#4, EDST := 3#2, LSA := s.FN ++ s.MD,
      ROAR := 0x195, LS := lsPut s.LS (s.FN ++ s.MD) s.R } := by
  rw [w34f]; simp

/-- Word 1bd. -/
theorem w1bd : ros 0x1bd = {
      lu := 0, mv := 0, zp := 832, zf := 0, zn := 3, tr := 0, ws := 6, sf := 5, iv := 0, al := 0, wm := 0, up := 2,
      md := 0, lb := 0, mb := 0, dg := 0, ul := 1, ur := 1, ce := 8, lx := 1, tc := 1, ry := 0, ad := 1, ab := 10,
      bb := 27, ss := 24 } := by
  decide +kernel

/-- `1bd qg100-j3 E=8 0+L>T |U:0 V:0 W:U>WL,U>WR>0 |LS:FN,MD>LSA LS>R,L>LS |SS:E>S47 |A:Carry B:MD/JI Z:340 A|(B=1)>A` -/
theorem x1bd (e : Env) (ex : Bool) (s : S) :
    exec e (ros 0x1bd) ex s = .ok { s with
      R := s.LS (s.FN ++ s.MD), alu := s.L, aob := s.L, u := 0#8, w := 0#8, EDST := 3#2, LSA := s.FN ++ s.MD,
      St := { s.St with s4 := true, s5 := false, s6 := false, s7 := false },
      ROAR := 832 ||| 2 * (s.CAR || (s.MD &&& 9#4 != 0#4 || s.J &&& 9#4 != 0#4)).toNat + (s.MD &&& 9#4 != 0#4 || s.J &&& 9#4 != 0#4).toNat,
      LS := lsPut s.LS (s.FN ++ s.MD) s.L } := by
  rw [w1bd]; simp

/-- Word 1bf. -/
theorem w1bf : ros 0x1bf = {
      lu := 0, mv := 0, zp := 832, zf := 0, zn := 3, tr := 0, ws := 6, sf := 5, iv := 0, al := 0, wm := 0, up := 2,
      md := 0, lb := 0, mb := 0, dg := 0, ul := 1, ur := 1, ce := 0, lx := 1, tc := 1, ry := 0, ad := 1, ab := 10,
      bb := 27, ss := 24 } := by
  decide +kernel

/-- `1bf qg100-e3 E=0 0+L>T |U:0 V:0 W:U>WL,U>WR>0 |LS:FN,MD>LSA LS>R,L>LS |SS:E>S47 |A:Carry B:MD/JI Z:340 A|(B=1)>A` -/
theorem x1bf (e : Env) (ex : Bool) (s : S) :
    exec e (ros 0x1bf) ex s = .ok { s with
      R := s.LS (s.FN ++ s.MD), alu := s.L, aob := s.L, u := 0#8, w := 0#8, EDST := 3#2, LSA := s.FN ++ s.MD,
      St := { s.St with s4 := false, s5 := false, s6 := false, s7 := false },
      ROAR := 832 ||| 2 * (s.CAR || (s.MD &&& 9#4 != 0#4 || s.J &&& 9#4 != 0#4)).toNat + (s.MD &&& 9#4 != 0#4 || s.J &&& 9#4 != 0#4).toNat,
      LS := lsPut s.LS (s.FN ++ s.MD) s.L } := by
  rw [w1bf]; simp

/-- Word 9d1. -/
theorem w9d1 : ros 0x9d1 = {
      lu := 0, mv := 0, zp := 832, zf := 0, zn := 3, tr := 7, ws := 6, sf := 5, iv := 0, al := 4, wm := 0, up := 2,
      md := 0, lb := 0, mb := 0, dg := 0, ul := 1, ur := 1, ce := 0, lx := 1, tc := 1, ry := 0, ad := 1, ab := 10,
      bb := 27, ss := 24 } := by
  decide +kernel

/-- `9d1 qg100-n3 E=0 0+L>L AL:-SGN>T |U:0 V:0 W:U>WL,U>WR>0 |LS:FN,MD>LSA LS>R,L>LS |SS:E>S47 |A:Carry B:MD/JI Z:340 A|(B=1)>A` -/
theorem x9d1 (e : Env) (ex : Bool) (s : S) :
    exec e (ros 0x9d1) ex s = .ok { s with
      R := s.LS (s.FN ++ s.MD), L := s.L ||| 2147483648#32, alu := s.L, aob := s.L ||| 2147483648#32, u := 0#8,
      w := 0#8, EDST := 3#2, LSA := s.FN ++ s.MD,
      St := { s.St with s4 := false, s5 := false, s6 := false, s7 := false },
      ROAR := 832 ||| 2 * (s.CAR || (s.MD &&& 9#4 != 0#4 || s.J &&& 9#4 != 0#4)).toNat + (s.MD &&& 9#4 != 0#4 || s.J &&& 9#4 != 0#4).toNat,
      LS := lsPut s.LS (s.FN ++ s.MD) (s.L ||| 2147483648#32) } := by
  rw [w9d1]; simp

/-- Word 9d3. -/
theorem w9d3 : ros 0x9d3 = {
      lu := 0, mv := 0, zp := 832, zf := 0, zn := 3, tr := 7, ws := 6, sf := 5, iv := 0, al := 3, wm := 0, up := 2,
      md := 0, lb := 0, mb := 0, dg := 0, ul := 1, ur := 1, ce := 8, lx := 1, tc := 1, ry := 0, ad := 1, ab := 10,
      bb := 27, ss := 24 } := by
  decide +kernel

/-- `9d3 qg100-s3 E=8 0+L>L AL:+SGN>T |U:0 V:0 W:U>WL,U>WR>0 |LS:FN,MD>LSA LS>R,L>LS |SS:E>S47 |A:Carry B:MD/JI Z:340 A|(B=1)>A` -/
theorem x9d3 (e : Env) (ex : Bool) (s : S) :
    exec e (ros 0x9d3) ex s = .ok { s with
      R := s.LS (s.FN ++ s.MD), L := s.L &&& 2147483647#32, alu := s.L, aob := s.L &&& 2147483647#32, u := 0#8,
      w := 0#8, EDST := 3#2, LSA := s.FN ++ s.MD,
      St := { s.St with s4 := true, s5 := false, s6 := false, s7 := false },
      ROAR := 832 ||| 2 * (s.CAR || (s.MD &&& 9#4 != 0#4 || s.J &&& 9#4 != 0#4)).toNat + (s.MD &&& 9#4 != 0#4 || s.J &&& 9#4 != 0#4).toNat,
      LS := lsPut s.LS (s.FN ++ s.MD) (s.L &&& 2147483647#32) } := by
  rw [w9d3]; simp

end Verif.Cpu50
