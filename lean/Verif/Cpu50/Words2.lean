import Verif.Cpu50.Words0

/-!
# Model 2050: words of the RR instructions

Written by a script from the model itself; each lemma is the effect of one word of `/repo/src/model2050/ros.txt`
on the processor, with the text of the word as the listing names its fields.
-/

namespace Verif.Cpu50

attribute [local simp] exec needsChan front condA condB combine abBits nextBase leftBus leftIn rightBus rightIn uBus vBus ceB moverL moverR adCin ivStep smif dgStep cinW adder adStep lateB alStep ssEarly trStep protect ssLate wsStep wmStep upStep finish Out.bind ceBit fpStats Nat.testBit_eq_decide_div_mod_eq mov_whole

/-- Word 104. -/
theorem w104 : ros 0x104 = {
      lu := 0, mv := 0, zp := 640, zf := 8, zn := 0, tr := 0, ws := 4, sf := 6, iv := 0, al := 0, wm := 0, up := 2,
      md := 0, lb := 0, mb := 0, dg := 0, ul := 1, ur := 1, ce := 0, lx := 0, tc := 1, ry := 0, ad := 1, ab := 0,
      bb := 0, ss := 0 } := by
  decide +kernel

/-- `104 qa111-g2 E=0 0+0>T |U:0 V:0 W:U>WL,U>WR>0 |LS:FN,J>LSA LS>L>LS |A:0 B:0 Z:280 M(47)>>ROAR` -/
theorem x104 (e : Env) (ex : Bool) (s : S) :
    exec e (ros 0x104) ex s = .ok { s with
      L := s.LS (s.FN ++ s.J), alu := 0#32, aob := 0#32, u := 0#8, w := 0#8, EDST := 3#2, LSA := s.FN ++ s.J,
      ROAR := 640 ||| nib s.M 6 <<< 2 } := by
  rw [w104]; simp

/-- Word 100. -/
theorem w100 : ros 0x100 = {
      lu := 0, mv := 0, zp := 384, zf := 8, zn := 0, tr := 0, ws := 4, sf := 2, iv := 0, al := 6, wm := 2, up := 2,
      md := 0, lb := 0, mb := 0, dg := 0, ul := 1, ur := 1, ce := 7, lx := 0, tc := 1, ry := 0, ad := 1, ab := 1,
      bb := 0, ss := 16 } := by
  decide +kernel

/-- `100 qa110-g2 E=7 0+0>T AL:IA>H |U:0 V:0 W:U>WL,U>WR>W67>MB |LS:FN,J>LSA LS>R>LS |SS:S03.!E |A:1 B:0 Z:180 M(47)>>ROAR` -/
theorem x100 (e : Env) (ex : Bool) (s : S) :
    exec e (ros 0x100) ex s = .ok { s with
      R := s.LS (s.FN ++ s.J), H := s.H &&& 4278190080#32 ||| s.IA &&& 16777215#32, alu := 0#32, aob := 0#32, u := 0#8,
      w := 0#8, MB := 0#2, EDST := 3#2, LSA := s.FN ++ s.J, St := { s.St with s1 := false, s2 := false, s3 := false },
      ROAR := 384 ||| nib s.M 6 <<< 2 ||| 2 } := by
  rw [w100]; simp

/-- Word 101. -/
theorem w101 : ros 0x101 = {
      lu := 0, mv := 0, zp := 384, zf := 8, zn := 0, tr := 0, ws := 4, sf := 2, iv := 0, al := 6, wm := 2, up := 2,
      md := 0, lb := 0, mb := 0, dg := 0, ul := 1, ur := 1, ce := 7, lx := 0, tc := 1, ry := 0, ad := 1, ab := 1,
      bb := 0, ss := 16 } := by
  decide +kernel

/-- `101 qa110-l2 E=7 0+0>T AL:IA>H |U:0 V:0 W:U>WL,U>WR>W67>MB |LS:FN,J>LSA LS>R>LS |SS:S03.!E |A:1 B:0 Z:180 M(47)>>ROAR` -/
theorem x101 (e : Env) (ex : Bool) (s : S) :
    exec e (ros 0x101) ex s = .ok { s with
      R := s.LS (s.FN ++ s.J), H := s.H &&& 4278190080#32 ||| s.IA &&& 16777215#32, alu := 0#32, aob := 0#32, u := 0#8,
      w := 0#8, MB := 0#2, EDST := 3#2, LSA := s.FN ++ s.J, St := { s.St with s1 := false, s2 := false, s3 := false },
      ROAR := 384 ||| nib s.M 6 <<< 2 ||| 2 } := by
  rw [w101]; simp

/-- Word 280. -/
theorem w280 : ros 0x280 = {
      lu := 0, mv := 0, zp := 512, zf := 7, zn := 4, tr := 1, ws := 6, sf := 0, iv := 0, al := 0, wm := 1, up := 2,
      md := 0, lb := 0, mb := 0, dg := 0, ul := 1, ur := 0, ce := 8, lx := 1, tc := 1, ry := 0, ad := 1, ab := 31,
      bb := 0, ss := 41 } := by
  decide +kernel

/-- `280 qb100-q1 E=8 0+L>R |U:0 V:0 W:U>WL,E>WR>W>MMB |LS:FN,MD>LSA R>LS |SS:SETCRALG |A:L(0) B:0 Z:21c ` -/
theorem x280 (e : Env) (ex : Bool) (s : S) :
    exec e (ros 0x280) ex s = .ok { s with
      R := s.L, M := putByte s.M s.MB 8#8, alu := s.L, aob := s.L, u := 0#8, w := 8#8, EDST := 3#2,
      CC := if s.L = 0#32 then 0#2 else if BitVec.msb s.L = true then 1#2 else 2#2, LSA := s.FN ++ s.MD,
      ROAR := 540 ||| 2 * (BitVec.msb s.L).toNat, LS := lsPut s.LS (s.FN ++ s.MD) s.L } := by
  rw [w280]; simp

/-- Word 21c. -/
theorem w21c : ros 0x21c = {
      lu := 0, mv := 0, zp := 320, zf := 2, zn := 4, tr := 0, ws := 3, sf := 6, iv := 7, al := 0, wm := 0, up := 2,
      md := 0, lb := 0, mb := 0, dg := 0, ul := 1, ur := 1, ce := 14, lx := 0, tc := 1, ry := 0, ad := 1, ab := 56,
      bb := 0, ss := 24 } := by
  decide +kernel

/-- `21c qb100-l5 E=e 0+0>T |U:0 V:0 W:U>WL,U>WR>0 |LS:WS,E>LSA LS>L>LS |IV:IA+0/2>A |SS:E>S47 |A:I-FETCH B:0 Z:148 ` -/
theorem x21c (e : Env) (ex : Bool) (s : S) :
    exec e (ros 0x21c) ex s = .ok { s with
      L := s.LS 30#6, SAR := ifAddr s.REFETCH s.IA, alu := 0#32, aob := 0#32, u := 0#8, w := 0#8, EDST := 3#2,
      LSA := 30#6, St := { s.St with s4 := true, s5 := true, s6 := true, s7 := false },
      IVA := s.IVA || decide (e.memMax < ifAddr s.REFETCH s.IA),
      initMem := s.initMem || !decide (e.memMax < ifAddr s.REFETCH s.IA),
      ROAR := 328 ||| 2 * (ex || s.IA &&& 2#32 == 0#32).toNat + (ex || s.IA &&& 2#32 != 0#32 && s.REFETCH).toNat } := by
  rw [w21c]; simp

/-- Word 21d. -/
theorem w21d : ros 0x21d = {
      lu := 0, mv := 0, zp := 512, zf := 6, zn := 4, tr := 0, ws := 4, sf := 7, iv := 0, al := 0, wm := 0, up := 2,
      md := 0, lb := 0, mb := 0, dg := 0, ul := 1, ur := 1, ce := 2, lx := 0, tc := 1, ry := 0, ad := 1, ab := 1,
      bb := 1, ss := 38 } := by
  decide +kernel

/-- `21d qb100-g5 E=2 0+0>T |U:0 V:0 W:U>WL,U>WR>0 |LS:FN,J>LSA 7 |SS:E(13)>WFN |A:1 B:1 Z:218 ` -/
theorem x21d (e : Env) (ex : Bool) (s : S) :
    exec e (ros 0x21d) ex s = .ok { s with
      alu := 0#32, aob := 0#32, u := 0#8, w := 0#8, EDST := 3#2, mvf := 2#3, LSA := s.FN ++ s.J, ROAR := 0x21b } := by
  rw [w21d]; simp

/-- Word 21e. -/
theorem w21e : ros 0x21e = {
      lu := 0, mv := 0, zp := 512, zf := 7, zn := 4, tr := 1, ws := 6, sf := 0, iv := 0, al := 0, wm := 0, up := 2,
      md := 0, lb := 0, mb := 0, dg := 2, ul := 1, ur := 1, ce := 0, lx := 1, tc := 0, ry := 0, ad := 5, ab := 0,
      bb := 30, ss := 41 } := by
  decide +kernel

/-- `21e qb100-q5 E=0 0-L>R AD:BC^C |U:0 V:0 W:U>WL,U>WR>0 |LS:FN,MD>LSA R>LS |DG:HOT1>ADDR |SS:SETCRALG |A:0 B:(CAR) Z:21c ` -/
theorem x21e (e : Env) (ex : Bool) (s : S) :
    exec e (ros 0x21e) ex s = .ok { s with
      R := ~~~s.L + 1#32, alu := ~~~s.L + 1#32, aob := ~~~s.L + 1#32, u := 0#8, w := 0#8, EDST := 3#2,
      CC := if ~~~s.L + 1#32 = 0#32 then 0#2 else if BitVec.msb (~~~s.L + 1#32) = true then 1#2 else 2#2,
      LSA := s.FN ++ s.MD,
      ROAR := 540 ||| (BitVec.msb (carriesOf (~~~s.L) (0#32) (~~~s.L + 1#32)) ^^ BitVec.getMsbD (carriesOf (~~~s.L) (0#32) (~~~s.L + 1#32)) 1).toNat,
      LS := lsPut s.LS (s.FN ++ s.MD) (~~~s.L + 1#32) } := by
  rw [w21e]; simp

/-- Word 21f. -/
theorem w21f : ros 0x21f = {
      lu := 0, mv := 0, zp := 640, zf := 0, zn := 4, tr := 20, ws := 4, sf := 7, iv := 0, al := 28, wm := 0, up := 2,
      md := 0, lb := 0, mb := 0, dg := 0, ul := 1, ur := 1, ce := 0, lx := 0, tc := 1, ry := 0, ad := 1, ab := 1,
      bb := 1, ss := 0 } := by
  decide +kernel

/-- `21f qw111-a5 E=0 0+0>H AL:DKEY>F |U:0 V:0 W:U>WL,U>WR>0 |LS:FN,J>LSA 7 |A:1 B:1 Z:280 ` -/
theorem x21f (e : Env) (ex : Bool) (s : S) :
    exec e (ros 0x21f) ex s = .ok { s with
      H := e.dkeys, alu := 0#32, aob := e.dkeys, u := 0#8, w := 0#8, EDST := 3#2, LSA := s.FN ++ s.J, ROAR := 0x283 } := by
  rw [w21f]; simp

/-- Word 284. -/
theorem w284 : ros 0x284 = {
      lu := 0, mv := 0, zp := 512, zf := 6, zn := 6, tr := 1, ws := 6, sf := 0, iv := 0, al := 0, wm := 0, up := 2,
      md := 0, lb := 0, mb := 0, dg := 0, ul := 1, ur := 1, ce := 0, lx := 1, tc := 1, ry := 0, ad := 1, ab := 31,
      bb := 0, ss := 41 } := by
  decide +kernel

/-- `284 qb100-e1 E=0 0+L>R |U:0 V:0 W:U>WL,U>WR>0 |LS:FN,MD>LSA R>LS |SS:SETCRALG |A:L(0) B:0 Z:218 B|(A=0)>B` -/
theorem x284 (e : Env) (ex : Bool) (s : S) :
    exec e (ros 0x284) ex s = .ok { s with
      R := s.L, alu := s.L, aob := s.L, u := 0#8, w := 0#8, EDST := 3#2,
      CC := if s.L = 0#32 then 0#2 else if BitVec.msb s.L = true then 1#2 else 2#2, LSA := s.FN ++ s.MD,
      ROAR := 536 ||| 2 * (BitVec.msb s.L).toNat + (!BitVec.msb s.L).toNat, LS := lsPut s.LS (s.FN ++ s.MD) s.L } := by
  rw [w284]; simp

/-- Word 219. -/
theorem w219 : ros 0x219 = {
      lu := 0, mv := 0, zp := 320, zf := 1, zn := 1, tr := 1, ws := 6, sf := 0, iv := 7, al := 0, wm := 0, up := 2,
      md := 0, lb := 0, mb := 0, dg := 2, ul := 1, ur := 1, ce := 0, lx := 1, tc := 0, ry := 0, ad := 5, ab := 56,
      bb := 0, ss := 41 } := by
  decide +kernel

/-- `219 qb100-g3 E=0 0-L>R AD:BC^C |U:0 V:0 W:U>WL,U>WR>0 |LS:FN,MD>LSA R>LS |IV:IA+0/2>A |DG:HOT1>ADDR |SS:SETCRALG |A:I-FETCH B:0 Z:144 SMIF` -/
theorem x219 (e : Env) (ex : Bool) (s : S) :
    exec e (ros 0x219) ex s = .ok { s with
      R := ~~~s.L + 1#32, SAR := if s.REFETCH = false ∧ ¬s.IA &&& 2#32 = 0#32 then s.SAR else ifAddr s.REFETCH s.IA,
      alu := ~~~s.L + 1#32, aob := ~~~s.L + 1#32, u := 0#8, w := 0#8, EDST := 3#2,
      CC := if ~~~s.L + 1#32 = 0#32 then 0#2 else if BitVec.msb (~~~s.L + 1#32) = true then 1#2 else 2#2,
      LSA := s.FN ++ s.MD,
      IVA := s.IVA || (s.REFETCH || !s.IA &&& 2#32 != 0#32) && decide (e.memMax < ifAddr s.REFETCH s.IA),
      initMem := s.initMem || (s.REFETCH || !s.IA &&& 2#32 != 0#32) && !decide (e.memMax < ifAddr s.REFETCH s.IA),
      ROAR := 324 ||| 2 * (ex || s.IA &&& 2#32 == 0#32).toNat + (ex || s.IA &&& 2#32 != 0#32 && s.REFETCH).toNat,
      LS := lsPut s.LS (s.FN ++ s.MD) (~~~s.L + 1#32) } := by
  rw [w219]; simp

/-- Word 288. -/
theorem w288 : ros 0x288 = {
      lu := 0, mv := 0, zp := 320, zf := 1, zn := 1, tr := 0, ws := 6, sf := 4, iv := 7, al := 0, wm := 0, up := 2,
      md := 0, lb := 0, mb := 0, dg := 0, ul := 1, ur := 1, ce := 0, lx := 1, tc := 1, ry := 0, ad := 1, ab := 56,
      bb := 0, ss := 41 } := by
  decide +kernel

/-- `288 qb100-a7 E=0 0+L>T |U:0 V:0 W:U>WL,U>WR>0 |LS:FN,MD>LSA L>LS |IV:IA+0/2>A |SS:SETCRALG |A:I-FETCH B:0 Z:144 SMIF` -/
theorem x288 (e : Env) (ex : Bool) (s : S) :
    exec e (ros 0x288) ex s = .ok { s with
      SAR := if s.REFETCH = false ∧ ¬s.IA &&& 2#32 = 0#32 then s.SAR else ifAddr s.REFETCH s.IA, alu := s.L,
      aob := s.L, u := 0#8, w := 0#8, EDST := 3#2,
      CC := if s.L = 0#32 then 0#2 else if BitVec.msb s.L = true then 1#2 else 2#2, LSA := s.FN ++ s.MD,
      IVA := s.IVA || (s.REFETCH || !s.IA &&& 2#32 != 0#32) && decide (e.memMax < ifAddr s.REFETCH s.IA),
      initMem := s.initMem || (s.REFETCH || !s.IA &&& 2#32 != 0#32) && !decide (e.memMax < ifAddr s.REFETCH s.IA),
      ROAR := 324 ||| 2 * (ex || s.IA &&& 2#32 == 0#32).toNat + (ex || s.IA &&& 2#32 != 0#32 && s.REFETCH).toNat,
      LS := lsPut s.LS (s.FN ++ s.MD) s.L } := by
  rw [w288]; simp

/-- Word 28c. -/
theorem w28c : ros 0x28c = {
      lu := 0, mv := 0, zp := 512, zf := 7, zn := 4, tr := 1, ws := 6, sf := 0, iv := 0, al := 0, wm := 1, up := 2,
      md := 0, lb := 0, mb := 0, dg := 2, ul := 1, ur := 0, ce := 8, lx := 1, tc := 0, ry := 0, ad := 5, ab := 0,
      bb := 30, ss := 41 } := by
  decide +kernel

/-- `28c qb100-l1 E=8 0-L>R AD:BC^C |U:0 V:0 W:U>WL,E>WR>W>MMB |LS:FN,MD>LSA R>LS |DG:HOT1>ADDR |SS:SETCRALG |A:0 B:(CAR) Z:21c ` -/
theorem x28c (e : Env) (ex : Bool) (s : S) :
    exec e (ros 0x28c) ex s = .ok { s with
      R := ~~~s.L + 1#32, M := putByte s.M s.MB 8#8, alu := ~~~s.L + 1#32, aob := ~~~s.L + 1#32, u := 0#8, w := 8#8,
      EDST := 3#2, CC := if ~~~s.L + 1#32 = 0#32 then 0#2 else if BitVec.msb (~~~s.L + 1#32) = true then 1#2 else 2#2,
      LSA := s.FN ++ s.MD,
      ROAR := 540 ||| (BitVec.msb (carriesOf (~~~s.L) (0#32) (~~~s.L + 1#32)) ^^ BitVec.getMsbD (carriesOf (~~~s.L) (0#32) (~~~s.L + 1#32)) 1).toNat,
      LS := lsPut s.LS (s.FN ++ s.MD) (~~~s.L + 1#32) } := by
  rw [w28c]; simp

/-- Word 290. -/
theorem w290 : ros 0x290 = {
      lu := 0, mv := 0, zp := 512, zf := 14, zn := 4, tr := 3, ws := 6, sf := 6, iv := 0, al := 0, wm := 0, up := 2,
      md := 0, lb := 0, mb := 1, dg := 0, ul := 1, ur := 1, ce := 2, lx := 1, tc := 1, ry := 0, ad := 1, ab := 0,
      bb := 0, ss := 38 } := by
  decide +kernel

/-- `290 qb400-a1 E=2 0+L>M |U:0 V:0 W:U>WL,U>WR>0 |LS:FN,MD>LSA LS>L>LS |CNTmb- |SS:E(13)>WFN |A:0 B:0 Z:238 ` -/
theorem x290 (e : Env) (ex : Bool) (s : S) :
    exec e (ros 0x290) ex s = .ok { s with
      L := s.LS (s.FN ++ s.MD), M := s.L, alu := s.L, aob := s.L, u := 0#8, w := 0#8, MB := s.MB - 1#2, EDST := 3#2,
      mvf := 2#3, LSA := s.FN ++ s.MD, ROAR := 0x238 } := by
  rw [w290]; simp

/-- Word 298. -/
theorem w298 : ros 0x298 = {
      lu := 0, mv := 0, zp := 512, zf := 14, zn := 4, tr := 3, ws := 6, sf := 6, iv := 0, al := 0, wm := 0, up := 2,
      md := 0, lb := 0, mb := 1, dg := 0, ul := 1, ur := 1, ce := 1, lx := 1, tc := 1, ry := 0, ad := 1, ab := 0,
      bb := 0, ss := 38 } := by
  decide +kernel

/-- `298 qb400-c1 E=1 0+L>M |U:0 V:0 W:U>WL,U>WR>0 |LS:FN,MD>LSA LS>L>LS |CNTmb- |SS:E(13)>WFN |A:0 B:0 Z:238 ` -/
theorem x298 (e : Env) (ex : Bool) (s : S) :
    exec e (ros 0x298) ex s = .ok { s with
      L := s.LS (s.FN ++ s.MD), M := s.L, alu := s.L, aob := s.L, u := 0#8, w := 0#8, MB := s.MB - 1#2, EDST := 3#2,
      mvf := 1#3, LSA := s.FN ++ s.MD, ROAR := 0x238 } := by
  rw [w298]; simp

/-- Word 29c. -/
theorem w29c : ros 0x29c = {
      lu := 0, mv := 0, zp := 512, zf := 14, zn := 4, tr := 3, ws := 6, sf := 6, iv := 0, al := 0, wm := 0, up := 2,
      md := 0, lb := 0, mb := 1, dg := 0, ul := 1, ur := 1, ce := 3, lx := 1, tc := 1, ry := 0, ad := 1, ab := 0,
      bb := 0, ss := 38 } := by
  decide +kernel

/-- `29c qb400-e1 E=3 0+L>M |U:0 V:0 W:U>WL,U>WR>0 |LS:FN,MD>LSA LS>L>LS |CNTmb- |SS:E(13)>WFN |A:0 B:0 Z:238 ` -/
theorem x29c (e : Env) (ex : Bool) (s : S) :
    exec e (ros 0x29c) ex s = .ok { s with
      L := s.LS (s.FN ++ s.MD), M := s.L, alu := s.L, aob := s.L, u := 0#8, w := 0#8, MB := s.MB - 1#2, EDST := 3#2,
      mvf := 3#3, LSA := s.FN ++ s.MD, ROAR := 0x238 } := by
  rw [w29c]; simp

/-- Word 238. -/
theorem w238 : ros 0x238 = {
      lu := 6, mv := 2, zp := 512, zf := 14, zn := 4, tr := 0, ws := 4, sf := 7, iv := 0, al := 0, wm := 1, up := 2,
      md := 0, lb := 0, mb := 1, dg := 0, ul := 3, ur := 3, ce := 0, lx := 0, tc := 1, ry := 0, ad := 1, ab := 21,
      bb := 0, ss := 0 } := by
  decide +kernel

/-- `238 qb400-j4 E=0 0+0>T |U:LMB>U V:MMB>V W:?>WL,?>WR>W>MMB |LS:FN,J>LSA 7 |CNTmb- |A:MB=3 B:0 Z:238 ` -/
theorem x238 (e : Env) (ex : Bool) (s : S) :
    exec e (ros 0x238) ex s = .ok { s with
      M := putByte s.M s.MB (mvfL s.mvf (byteOf s.L s.MB) (byteOf s.M s.MB) ||| mvfR s.mvf (byteOf s.L s.MB) (byteOf s.M s.MB)),
      alu := 0#32, aob := 0#32, u := byteOf s.L s.MB,
      w := mvfL s.mvf (byteOf s.L s.MB) (byteOf s.M s.MB) ||| mvfR s.mvf (byteOf s.L s.MB) (byteOf s.M s.MB),
      MB := s.MB - 1#2, EDST := if byteOf s.M s.MB &&& 252#8 = 32#8 then BitVec.setWidth 2 (byteOf s.M s.MB) else 3#2,
      LSA := s.FN ++ s.J, ROAR := 568 ||| 2 * (s.MB == 3#2).toNat } := by
  rw [w238]; simp

/-- Word 239. -/
theorem w239 : ros 0x239 = {
      lu := 0, mv := 0, zp := 640, zf := 2, zn := 4, tr := 7, ws := 4, sf := 7, iv := 0, al := 0, wm := 9, up := 2,
      md := 0, lb := 0, mb := 0, dg := 0, ul := 0, ur := 1, ce := 8, lx := 0, tc := 1, ry := 1, ad := 1, ab := 1,
      bb := 10, ss := 8 } := by
  decide +kernel

/-- `239 qb800-a5 E=8 R+0>L |U:0 V:0 W:E>WL,U>WR>WL>G1 |LS:FN,J>LSA 7 |SS:E->S03 |A:1 B:RSGN Z:288 ` -/
theorem x239 (e : Env) (ex : Bool) (s : S) :
    exec e (ros 0x239) ex s = .ok { s with
      L := s.R, alu := s.R, aob := s.R, u := 0#8, w := 128#8, G := s.G &&& 15#8 ||| 128#8, EDST := 3#2,
      LSA := s.FN ++ s.J, St := { s.St with s0 := true, s1 := false, s2 := false, s3 := false }, G1NEG := false,
      ROAR := 648 ||| 2 + s.RSGNS.toNat } := by
  rw [w239]; simp

/-- Word 23a. -/
theorem w23a : ros 0x23a = {
      lu := 0, mv := 0, zp := 320, zf := 1, zn := 1, tr := 7, ws := 6, sf := 4, iv := 7, al := 0, wm := 0, up := 2,
      md := 0, lb := 0, mb := 0, dg := 0, ul := 1, ur := 1, ce := 0, lx := 0, tc := 1, ry := 2, ad := 4, ab := 56,
      bb := 0, ss := 29 } := by
  decide +kernel

/-- `23a qb400-l6 E=0 M+0>L AD:BC0 |U:0 V:0 W:U>WL,U>WR>0 |LS:FN,MD>LSA L>LS |IV:IA+0/2>A |SS:CAR,(T!=0)->CR |A:I-FETCH B:0 Z:144 SMIF` -/
theorem x23a (e : Env) (ex : Bool) (s : S) :
    exec e (ros 0x23a) ex s = .ok { s with
      L := s.M, SAR := if s.REFETCH = false ∧ ¬s.IA &&& 2#32 = 0#32 then s.SAR else ifAddr s.REFETCH s.IA, alu := s.M,
      aob := s.M, u := 0#8, w := 0#8, EDST := 3#2,
      CC := (if BitVec.msb (carriesOf (0#32) s.M s.M) = true then 2#2 else 0#2) ||| if s.M = 0#32 then 0#2 else 1#2,
      LSA := s.FN ++ s.MD,
      IVA := s.IVA || (s.REFETCH || !s.IA &&& 2#32 != 0#32) && decide (e.memMax < ifAddr s.REFETCH s.IA),
      CAR := BitVec.msb (carriesOf (0#32) s.M s.M),
      initMem := s.initMem || (s.REFETCH || !s.IA &&& 2#32 != 0#32) && !decide (e.memMax < ifAddr s.REFETCH s.IA),
      ROAR := 324 ||| 2 * (ex || s.IA &&& 2#32 == 0#32).toNat + (ex || s.IA &&& 2#32 != 0#32 && s.REFETCH).toNat,
      LS := lsPut s.LS (s.FN ++ s.MD) s.M } := by
  rw [w23a]; simp

/-- Word 23b. -/
theorem w23b : ros 0x23b = {
      lu := 0, mv := 0, zp := 512, zf := 14, zn := 4, tr := 3, ws := 4, sf := 7, iv := 0, al := 0, wm := 0, up := 2,
      md := 0, lb := 0, mb := 0, dg := 2, ul := 1, ur := 1, ce := 0, lx := 1, tc := 0, ry := 0, ad := 1, ab := 0,
      bb := 1, ss := 0 } := by
  decide +kernel

/-- `23b qb800-e5 E=0 0-L>M |U:0 V:0 W:U>WL,U>WR>0 |LS:FN,J>LSA 7 |DG:HOT1>ADDR |A:0 B:1 Z:238 ` -/
theorem x23b (e : Env) (ex : Bool) (s : S) :
    exec e (ros 0x23b) ex s = .ok { s with
      M := ~~~s.L + 1#32, alu := ~~~s.L + 1#32, aob := ~~~s.L + 1#32, u := 0#8, w := 0#8, EDST := 3#2,
      LSA := s.FN ++ s.J, ROAR := 0x239 } := by
  rw [w23b]; simp

/-- Word 294. -/
theorem w294 : ros 0x294 = {
      lu := 0, mv := 0, zp := 576, zf := 1, zn := 4, tr := 0, ws := 6, sf := 2, iv := 0, al := 0, wm := 0, up := 2,
      md := 0, lb := 0, mb := 0, dg := 0, ul := 1, ur := 1, ce := 0, lx := 0, tc := 1, ry := 0, ad := 1, ab := 1,
      bb := 0, ss := 0 } := by
  decide +kernel

/-- `294 qb500-l1 E=0 0+0>T |U:0 V:0 W:U>WL,U>WR>0 |LS:FN,MD>LSA LS>R>LS |A:1 B:0 Z:244 ` -/
theorem x294 (e : Env) (ex : Bool) (s : S) :
    exec e (ros 0x294) ex s = .ok { s with
      R := s.LS (s.FN ++ s.MD), alu := 0#32, aob := 0#32, u := 0#8, w := 0#8, EDST := 3#2, LSA := s.FN ++ s.MD,
      ROAR := 0x246 } := by
  rw [w294]; simp

/-- Word 246. -/
theorem w246 : ros 0x246 = {
      lu := 0, mv := 0, zp := 320, zf := 1, zn := 1, tr := 0, ws := 4, sf := 7, iv := 7, al := 0, wm := 0, up := 2,
      md := 0, lb := 0, mb := 0, dg := 2, ul := 1, ur := 1, ce := 0, lx := 1, tc := 0, ry := 1, ad := 4, ab := 56,
      bb := 0, ss := 42 } := by
  decide +kernel

/-- `246 qb500-n3 E=0 R-L>T AD:BC0 |U:0 V:0 W:U>WL,U>WR>0 |LS:FN,J>LSA 7 |IV:IA+0/2>A |DG:HOT1>ADDR |SS:SETCRLOG |A:I-FETCH B:0 Z:144 SMIF` -/
theorem x246 (e : Env) (ex : Bool) (s : S) :
    exec e (ros 0x246) ex s = .ok { s with
      SAR := if s.REFETCH = false ∧ ¬s.IA &&& 2#32 = 0#32 then s.SAR else ifAddr s.REFETCH s.IA,
      alu := ~~~(s.L &&& bsMask s.BS) + s.R + 1#32, aob := ~~~(s.L &&& bsMask s.BS) + s.R + 1#32, u := 0#8, w := 0#8,
      EDST := 3#2,
      CC := if ~~~(s.L &&& bsMask s.BS) + s.R + 1#32 &&& bsMask s.BS = 0#32 then 0#2 else if BitVec.msb (carriesOf (~~~(s.L &&& bsMask s.BS)) s.R (~~~(s.L &&& bsMask s.BS) + s.R + 1#32)) = true then 2#2 else 1#2,
      LSA := s.FN ++ s.J,
      IVA := s.IVA || (s.REFETCH || !s.IA &&& 2#32 != 0#32) && decide (e.memMax < ifAddr s.REFETCH s.IA),
      CAR := BitVec.msb (carriesOf (~~~(s.L &&& bsMask s.BS)) s.R (~~~(s.L &&& bsMask s.BS) + s.R + 1#32)),
      initMem := s.initMem || (s.REFETCH || !s.IA &&& 2#32 != 0#32) && !decide (e.memMax < ifAddr s.REFETCH s.IA),
      ROAR := 324 ||| 2 * (ex || s.IA &&& 2#32 == 0#32).toNat + (ex || s.IA &&& 2#32 != 0#32 && s.REFETCH).toNat } := by
  rw [w246]; simp

/-- Word 2a0. -/
theorem w2a0 : ros 0x2a0 = {
      lu := 0, mv := 0, zp := 320, zf := 1, zn := 1, tr := 0, ws := 6, sf := 4, iv := 7, al := 0, wm := 0, up := 2,
      md := 0, lb := 0, mb := 0, dg := 0, ul := 1, ur := 1, ce := 0, lx := 1, tc := 1, ry := 0, ad := 1, ab := 56,
      bb := 0, ss := 0 } := by
  decide +kernel

/-- `2a0 qb100-e7 E=0 0+L>T |U:0 V:0 W:U>WL,U>WR>0 |LS:FN,MD>LSA L>LS |IV:IA+0/2>A |A:I-FETCH B:0 Z:144 SMIF` -/
theorem x2a0 (e : Env) (ex : Bool) (s : S) :
    exec e (ros 0x2a0) ex s = .ok { s with
      SAR := if s.REFETCH = false ∧ ¬s.IA &&& 2#32 = 0#32 then s.SAR else ifAddr s.REFETCH s.IA, alu := s.L,
      aob := s.L, u := 0#8, w := 0#8, EDST := 3#2, LSA := s.FN ++ s.MD,
      IVA := s.IVA || (s.REFETCH || !s.IA &&& 2#32 != 0#32) && decide (e.memMax < ifAddr s.REFETCH s.IA),
      initMem := s.initMem || (s.REFETCH || !s.IA &&& 2#32 != 0#32) && !decide (e.memMax < ifAddr s.REFETCH s.IA),
      ROAR := 324 ||| 2 * (ex || s.IA &&& 2#32 == 0#32).toNat + (ex || s.IA &&& 2#32 != 0#32 && s.REFETCH).toNat,
      LS := lsPut s.LS (s.FN ++ s.MD) s.L } := by
  rw [w2a0]; simp

/-- Word 2a4. -/
theorem w2a4 : ros 0x2a4 = {
      lu := 0, mv := 0, zp := 576, zf := 1, zn := 4, tr := 0, ws := 6, sf := 2, iv := 0, al := 0, wm := 0, up := 1,
      md := 0, lb := 0, mb := 1, dg := 0, ul := 1, ur := 1, ce := 14, lx := 0, tc := 1, ry := 0, ad := 1, ab := 0,
      bb := 1, ss := 24 } := by
  decide +kernel

/-- `2a4 qb500-a1 E=e 0+0>T |U:0 V:0 W:U>WL,U>WR>0 |LS:FN,MD>LSA LS>R>LS |CNTmb=3 |SS:E>S47 |A:0 B:1 Z:244 ` -/
theorem x2a4 (e : Env) (ex : Bool) (s : S) :
    exec e (ros 0x2a4) ex s = .ok { s with
      R := s.LS (s.FN ++ s.MD), alu := 0#32, aob := 0#32, u := 0#8, w := 0#8, MB := 3#2, EDST := 3#2,
      LSA := s.FN ++ s.MD, St := { s.St with s4 := true, s5 := true, s6 := true, s7 := false }, ROAR := 0x245 } := by
  rw [w2a4]; simp

/-- Word 245. -/
theorem w245 : ros 0x245 = {
      lu := 0, mv := 0, zp := 640, zf := 1, zn := 4, tr := 3, ws := 4, sf := 7, iv := 0, al := 0, wm := 1, up := 2,
      md := 0, lb := 0, mb := 0, dg := 2, ul := 0, ur := 1, ce := 15, lx := 1, tc := 0, ry := 1, ad := 5, ab := 1,
      bb := 30, ss := 41 } := by
  decide +kernel

/-- `245 qb500-c3 E=f R-L>M AD:BC^C |U:0 V:0 W:E>WL,U>WR>W>MMB |LS:FN,J>LSA 7 |DG:HOT1>ADDR |SS:SETCRALG |A:1 B:(CAR) Z:284 ` -/
theorem x245 (e : Env) (ex : Bool) (s : S) :
    exec e (ros 0x245) ex s = .ok { s with
      M := ~~~s.L + s.R + 1#32 &&& 4294967040#32 ||| 240#32, alu := ~~~s.L + s.R + 1#32, aob := ~~~s.L + s.R + 1#32,
      u := 0#8, w := 240#8, EDST := 3#2,
      CC := if ~~~s.L + s.R + 1#32 = 0#32 then 0#2 else if BitVec.msb (~~~s.L + s.R + 1#32) = true then 1#2 else 2#2,
      LSA := s.FN ++ s.J,
      ROAR := 644 ||| 2 + (BitVec.msb (carriesOf (~~~s.L) s.R (~~~s.L + s.R + 1#32)) ^^ BitVec.getMsbD (carriesOf (~~~s.L) s.R (~~~s.L + s.R + 1#32)) 1).toNat } := by
  rw [w245]; simp

/-- Word 2a8. -/
theorem w2a8 : ros 0x2a8 = {
      lu := 1, mv := 0, zp := 512, zf := 8, zn := 4, tr := 0, ws := 6, sf := 2, iv := 0, al := 0, wm := 6, up := 2,
      md := 0, lb := 0, mb := 0, dg := 0, ul := 1, ur := 1, ce := 2, lx := 0, tc := 1, ry := 0, ad := 1, ab := 0,
      bb := 0, ss := 38 } := by
  decide +kernel

/-- `2a8 qb730-a1 E=2 0+0>T |U:MD,F>U V:0 W:U>WL,U>WR>WL>J |LS:FN,MD>LSA LS>R>LS |SS:E(13)>WFN |A:0 B:0 Z:220 ` -/
theorem x2a8 (e : Env) (ex : Bool) (s : S) :
    exec e (ros 0x2a8) ex s = .ok { s with
      R := s.LS (s.FN ++ s.MD), alu := 0#32, aob := 0#32, u := BitVec.setWidth 8 s.MD <<< 4 ||| s.F,
      w := BitVec.setWidth 8 s.MD <<< 4 ||| s.F, J := BitVec.setWidth 4 ((BitVec.setWidth 8 s.MD <<< 4 ||| s.F) >>> 4),
      EDST := 3#2, mvf := 2#3, LSA := s.FN ++ s.MD, ROAR := 0x220 } := by
  rw [w2a8]; simp

/-- Word 220. -/
theorem w220 : ros 0x220 = {
      lu := 0, mv := 0, zp := 512, zf := 6, zn := 4, tr := 1, ws := 4, sf := 0, iv := 0, al := 0, wm := 1, up := 2,
      md := 0, lb := 0, mb := 0, dg := 0, ul := 1, ur := 0, ce := 8, lx := 1, tc := 1, ry := 1, ad := 5, ab := 1,
      bb := 30, ss := 41 } := by
  decide +kernel

/-- `220 qb730-c3 E=8 R+L>R AD:BC^C |U:0 V:0 W:U>WL,E>WR>W>MMB |LS:FN,J>LSA R>LS |SS:SETCRALG |A:1 B:(CAR) Z:218 ` -/
theorem x220 (e : Env) (ex : Bool) (s : S) :
    exec e (ros 0x220) ex s = .ok { s with
      R := s.L + s.R, M := putByte s.M s.MB 8#8, alu := s.L + s.R, aob := s.L + s.R, u := 0#8, w := 8#8, EDST := 3#2,
      CC := if s.L + s.R = 0#32 then 0#2 else if BitVec.msb (s.L + s.R) = true then 1#2 else 2#2, LSA := s.FN ++ s.J,
      ROAR := 536 ||| 2 + (BitVec.msb (carriesOf s.L s.R (s.L + s.R)) ^^ BitVec.getMsbD (carriesOf s.L s.R (s.L + s.R)) 1).toNat,
      LS := lsPut s.LS (s.FN ++ s.J) (s.L + s.R) } := by
  rw [w220]; simp

/-- Word 21a. -/
theorem w21a : ros 0x21a = {
      lu := 0, mv := 0, zp := 320, zf := 2, zn := 4, tr := 0, ws := 3, sf := 6, iv := 7, al := 0, wm := 0, up := 2,
      md := 0, lb := 0, mb := 0, dg := 0, ul := 1, ur := 1, ce := 14, lx := 0, tc := 1, ry := 0, ad := 1, ab := 56,
      bb := 0, ss := 24 } := by
  decide +kernel

/-- `21a qb730-j5 E=e 0+0>T |U:0 V:0 W:U>WL,U>WR>0 |LS:WS,E>LSA LS>L>LS |IV:IA+0/2>A |SS:E>S47 |A:I-FETCH B:0 Z:148 ` -/
theorem x21a (e : Env) (ex : Bool) (s : S) :
    exec e (ros 0x21a) ex s = .ok { s with
      L := s.LS 30#6, SAR := ifAddr s.REFETCH s.IA, alu := 0#32, aob := 0#32, u := 0#8, w := 0#8, EDST := 3#2,
      LSA := 30#6, St := { s.St with s4 := true, s5 := true, s6 := true, s7 := false },
      IVA := s.IVA || decide (e.memMax < ifAddr s.REFETCH s.IA),
      initMem := s.initMem || !decide (e.memMax < ifAddr s.REFETCH s.IA),
      ROAR := 328 ||| 2 * (ex || s.IA &&& 2#32 == 0#32).toNat + (ex || s.IA &&& 2#32 != 0#32 && s.REFETCH).toNat } := by
  rw [w21a]; simp

/-- Word 21b. -/
theorem w21b : ros 0x21b = {
      lu := 5, mv := 2, zp := 576, zf := 2, zn := 4, tr := 0, ws := 4, sf := 7, iv := 0, al := 0, wm := 0, up := 2,
      md := 0, lb := 0, mb := 0, dg := 0, ul := 3, ur := 3, ce := 3, lx := 0, tc := 1, ry := 0, ad := 1, ab := 0,
      bb := 0, ss := 40 } := by
  decide +kernel

/-- `21b qb730-n5 E=3 0+0>T |U:PSW>U V:MMB>V W:?>WL,?>WR>0 |LS:FN,J>LSA 7 |SS:E(23)->CR |A:0 B:0 Z:248 ` -/
theorem x21b (e : Env) (ex : Bool) (s : S) :
    exec e (ros 0x21b) ex s = .ok { s with
      alu := 0#32, aob := 0#32,
      u := BitVec.setWidth 8 s.ILC <<< 6 ||| BitVec.setWidth 8 s.CC <<< 4 ||| BitVec.setWidth 8 s.PMASK,
      w := mvfL s.mvf (BitVec.setWidth 8 s.ILC <<< 6 ||| BitVec.setWidth 8 s.CC <<< 4 ||| BitVec.setWidth 8 s.PMASK) (byteOf s.M s.MB) ||| mvfR s.mvf (BitVec.setWidth 8 s.ILC <<< 6 ||| BitVec.setWidth 8 s.CC <<< 4 ||| BitVec.setWidth 8 s.PMASK) (byteOf s.M s.MB),
      EDST := if byteOf s.M s.MB &&& 252#8 = 32#8 then BitVec.setWidth 2 (byteOf s.M s.MB) else 3#2, CC := 3#2,
      LSA := s.FN ++ s.J, ROAR := 0x248 } := by
  rw [w21b]; simp

/-- Word 248. -/
theorem w248 : ros 0x248 = {
      lu := 0, mv := 0, zp := 512, zf := 6, zn := 4, tr := 0, ws := 4, sf := 7, iv := 0, al := 0, wm := 0, up := 2,
      md := 0, lb := 0, mb := 0, dg := 0, ul := 1, ur := 1, ce := 0, lx := 0, tc := 1, ry := 0, ad := 1, ab := 17,
      bb := 0, ss := 0 } := by
  decide +kernel

/-- `248 qb730-n6 E=0 0+0>T |U:0 V:0 W:U>WL,U>WR>0 |LS:FN,J>LSA 7 |A:W=0 B:0 Z:218 ` -/
theorem x248 (e : Env) (ex : Bool) (s : S) :
    exec e (ros 0x248) ex s = .ok { s with
      alu := 0#32, aob := 0#32, u := 0#8, w := 0#8, EDST := 3#2, LSA := s.FN ++ s.J,
      ROAR := 536 ||| 2 * (s.w == 0#8).toNat } := by
  rw [w248]; simp

/-- Word 2ac. -/
theorem w2ac : ros 0x2ac = {
      lu := 1, mv := 0, zp := 512, zf := 8, zn := 4, tr := 0, ws := 6, sf := 2, iv := 0, al := 0, wm := 6, up := 2,
      md := 0, lb := 0, mb := 0, dg := 0, ul := 1, ur := 1, ce := 2, lx := 0, tc := 1, ry := 0, ad := 1, ab := 0,
      bb := 1, ss := 38 } := by
  decide +kernel

/-- `2ac qb730-e1 E=2 0+0>T |U:MD,F>U V:0 W:U>WL,U>WR>WL>J |LS:FN,MD>LSA LS>R>LS |SS:E(13)>WFN |A:0 B:1 Z:220 ` -/
theorem x2ac (e : Env) (ex : Bool) (s : S) :
    exec e (ros 0x2ac) ex s = .ok { s with
      R := s.LS (s.FN ++ s.MD), alu := 0#32, aob := 0#32, u := BitVec.setWidth 8 s.MD <<< 4 ||| s.F,
      w := BitVec.setWidth 8 s.MD <<< 4 ||| s.F, J := BitVec.setWidth 4 ((BitVec.setWidth 8 s.MD <<< 4 ||| s.F) >>> 4),
      EDST := 3#2, mvf := 2#3, LSA := s.FN ++ s.MD, ROAR := 0x221 } := by
  rw [w2ac]; simp

/-- Word 221. -/
theorem w221 : ros 0x221 = {
      lu := 0, mv := 0, zp := 512, zf := 6, zn := 4, tr := 1, ws := 4, sf := 0, iv := 0, al := 0, wm := 1, up := 2,
      md := 0, lb := 0, mb := 0, dg := 2, ul := 1, ur := 0, ce := 8, lx := 1, tc := 0, ry := 1, ad := 5, ab := 1,
      bb := 30, ss := 41 } := by
  decide +kernel

/-- `221 qb730-g3 E=8 R-L>R AD:BC^C |U:0 V:0 W:U>WL,E>WR>W>MMB |LS:FN,J>LSA R>LS |DG:HOT1>ADDR |SS:SETCRALG |A:1 B:(CAR) Z:218 ` -/
theorem x221 (e : Env) (ex : Bool) (s : S) :
    exec e (ros 0x221) ex s = .ok { s with
      R := ~~~s.L + s.R + 1#32, M := putByte s.M s.MB 8#8, alu := ~~~s.L + s.R + 1#32, aob := ~~~s.L + s.R + 1#32,
      u := 0#8, w := 8#8, EDST := 3#2,
      CC := if ~~~s.L + s.R + 1#32 = 0#32 then 0#2 else if BitVec.msb (~~~s.L + s.R + 1#32) = true then 1#2 else 2#2,
      LSA := s.FN ++ s.J,
      ROAR := 536 ||| 2 + (BitVec.msb (carriesOf (~~~s.L) s.R (~~~s.L + s.R + 1#32)) ^^ BitVec.getMsbD (carriesOf (~~~s.L) s.R (~~~s.L + s.R + 1#32)) 1).toNat,
      LS := lsPut s.LS (s.FN ++ s.J) (~~~s.L + s.R + 1#32) } := by
  rw [w221]; simp

/-- Word 2b8. -/
theorem w2b8 : ros 0x2b8 = {
      lu := 0, mv := 0, zp := 576, zf := 2, zn := 4, tr := 0, ws := 6, sf := 2, iv := 0, al := 0, wm := 0, up := 2,
      md := 0, lb := 0, mb := 0, dg := 0, ul := 1, ur := 1, ce := 0, lx := 0, tc := 1, ry := 0, ad := 1, ab := 0,
      bb := 1, ss := 0 } := by
  decide +kernel

/-- `2b8 qr750-e1 E=0 0+0>T |U:0 V:0 W:U>WL,U>WR>0 |LS:FN,MD>LSA LS>R>LS |A:0 B:1 Z:248 ` -/
theorem x2b8 (e : Env) (ex : Bool) (s : S) :
    exec e (ros 0x2b8) ex s = .ok { s with
      R := s.LS (s.FN ++ s.MD), alu := 0#32, aob := 0#32, u := 0#8, w := 0#8, EDST := 3#2, LSA := s.FN ++ s.MD,
      ROAR := 0x249 } := by
  rw [w2b8]; simp

/-- Word 249. -/
theorem w249 : ros 0x249 = {
      lu := 0, mv := 0, zp := 384, zf := 5, zn := 4, tr := 7, ws := 6, sf := 4, iv := 0, al := 0, wm := 0, up := 2,
      md := 0, lb := 0, mb := 0, dg := 0, ul := 1, ur := 1, ce := 0, lx := 1, tc := 1, ry := 1, ad := 4, ab := 1,
      bb := 1, ss := 29 } := by
  decide +kernel

/-- `249 qb750-c3 E=0 R+L>L AD:BC0 |U:0 V:0 W:U>WL,U>WR>0 |LS:FN,MD>LSA L>LS |SS:CAR,(T!=0)->CR |A:1 B:1 Z:194 ` -/
theorem x249 (e : Env) (ex : Bool) (s : S) :
    exec e (ros 0x249) ex s = .ok { s with
      L := s.L + s.R, alu := s.L + s.R, aob := s.L + s.R, u := 0#8, w := 0#8, EDST := 3#2,
      CC := (if BitVec.msb (carriesOf s.L s.R (s.L + s.R)) = true then 2#2 else 0#2) ||| if s.L + s.R = 0#32 then 0#2 else 1#2,
      LSA := s.FN ++ s.MD, CAR := BitVec.msb (carriesOf s.L s.R (s.L + s.R)), ROAR := 0x197,
      LS := lsPut s.LS (s.FN ++ s.MD) (s.L + s.R) } := by
  rw [w249]; simp

/-- Word 2bc. -/
theorem w2bc : ros 0x2bc = {
      lu := 0, mv := 0, zp := 576, zf := 2, zn := 4, tr := 0, ws := 6, sf := 2, iv := 0, al := 0, wm := 0, up := 2,
      md := 0, lb := 0, mb := 0, dg := 0, ul := 1, ur := 1, ce := 0, lx := 0, tc := 1, ry := 0, ad := 1, ab := 1,
      bb := 0, ss := 0 } := by
  decide +kernel

/-- `2bc qb750-l1 E=0 0+0>T |U:0 V:0 W:U>WL,U>WR>0 |LS:FN,MD>LSA LS>R>LS |A:1 B:0 Z:248 ` -/
theorem x2bc (e : Env) (ex : Bool) (s : S) :
    exec e (ros 0x2bc) ex s = .ok { s with
      R := s.LS (s.FN ++ s.MD), alu := 0#32, aob := 0#32, u := 0#8, w := 0#8, EDST := 3#2, LSA := s.FN ++ s.MD,
      ROAR := 0x24a } := by
  rw [w2bc]; simp

/-- Word 24a. -/
theorem w24a : ros 0x24a = {
      lu := 0, mv := 0, zp := 384, zf := 5, zn := 4, tr := 7, ws := 6, sf := 4, iv := 0, al := 0, wm := 0, up := 2,
      md := 0, lb := 0, mb := 0, dg := 2, ul := 1, ur := 1, ce := 0, lx := 1, tc := 0, ry := 1, ad := 4, ab := 1,
      bb := 1, ss := 29 } := by
  decide +kernel

/-- `24a qb750-n3 E=0 R-L>L AD:BC0 |U:0 V:0 W:U>WL,U>WR>0 |LS:FN,MD>LSA L>LS |DG:HOT1>ADDR |SS:CAR,(T!=0)->CR |A:1 B:1 Z:194 ` -/
theorem x24a (e : Env) (ex : Bool) (s : S) :
    exec e (ros 0x24a) ex s = .ok { s with
      L := ~~~s.L + s.R + 1#32, alu := ~~~s.L + s.R + 1#32, aob := ~~~s.L + s.R + 1#32, u := 0#8, w := 0#8,
      EDST := 3#2,
      CC := (if BitVec.msb (carriesOf (~~~s.L) s.R (~~~s.L + s.R + 1#32)) = true then 2#2 else 0#2) ||| if ~~~s.L + s.R + 1#32 = 0#32 then 0#2 else 1#2,
      LSA := s.FN ++ s.MD, CAR := BitVec.msb (carriesOf (~~~s.L) s.R (~~~s.L + s.R + 1#32)), ROAR := 0x197,
      LS := lsPut s.LS (s.FN ++ s.MD) (~~~s.L + s.R + 1#32) } := by
  rw [w24a]; simp

/-- Word 19e. -/
theorem w19e : ros 0x19e = {
      lu := 0, mv := 0, zp := 448, zf := 1, zn := 3, tr := 7, ws := 4, sf := 7, iv := 0, al := 0, wm := 0, up := 2,
      md := 0, lb := 0, mb := 0, dg := 0, ul := 1, ur := 1, ce := 0, lx := 0, tc := 1, ry := 1, ad := 1, ab := 16,
      bb := 2, ss := 0 } := by
  decide +kernel

/-- `19e qa700-e1 E=0 R+0>L |U:0 V:0 W:U>WL,U>WR>0 |LS:FN,J>LSA 7 |A:CRMD B:S0 Z:1c4 A|(B=1)>A` -/
theorem x19e (e : Env) (ex : Bool) (s : S) :
    exec e (ros 0x19e) ex s = .ok { s with
      L := s.R, alu := s.R, aob := s.R, u := 0#8, w := 0#8, EDST := 3#2, LSA := s.FN ++ s.J,
      ROAR := 452 ||| 2 * (s.MD &&& 8#4 >>> s.CC.toNat != 0#4 || s.St.s0).toNat + s.St.s0.toNat } := by
  rw [w19e]; simp

/-- Word 1c6. -/
theorem w1c6 : ros 0x1c6 = {
      lu := 0, mv := 0, zp := 256, zf := 0, zn := 4, tr := 9, ws := 4, sf := 7, iv := 0, al := 0, wm := 0, up := 2,
      md := 0, lb := 0, mb := 0, dg := 0, ul := 1, ur := 1, ce := 15, lx := 1, tc := 1, ry := 0, ad := 1, ab := 1,
      bb := 12, ss := 18 } := by
  decide +kernel

/-- `1c6 qa700-e4 E=f 0+L>R,AN |U:0 V:0 W:U>WL,U>WR>0 |LS:FN,J>LSA 7 |SS:E->BS,T30->S3 |A:1 B:EXC Z:100 ` -/
theorem x1c6 (e : Env) (ex : Bool) (s : S) :
    exec e (ros 0x1c6) ex s = .ok { s with
      R := s.L, SAR := s.L &&& 16777215#32, alu := s.L, aob := s.L, u := 0#8, w := 0#8, BS := 15#4, EDST := 3#2,
      LSA := s.FN ++ s.J, St := { s.St with s3 := s.L &&& 2#32 != 0#32 },
      IVA := s.IVA || decide (e.memMax < s.L &&& 16777215#32),
      initMem := s.initMem || !decide (e.memMax < s.L &&& 16777215#32), ROAR := 256 ||| 2 + ex.toNat } := by
  rw [w1c6]; simp

/-- Word 1c4. -/
theorem w1c4 : ros 0x1c4 = {
      lu := 0, mv := 0, zp := 320, zf := 2, zn := 4, tr := 0, ws := 3, sf := 6, iv := 7, al := 0, wm := 0, up := 2,
      md := 0, lb := 0, mb := 0, dg := 0, ul := 1, ur := 1, ce := 14, lx := 0, tc := 1, ry := 0, ad := 1, ab := 56,
      bb := 0, ss := 24 } := by
  decide +kernel

/-- `1c4 qa700-a4 E=e 0+0>T |U:0 V:0 W:U>WL,U>WR>0 |LS:WS,E>LSA LS>L>LS |IV:IA+0/2>A |SS:E>S47 |A:I-FETCH B:0 Z:148 ` -/
theorem x1c4 (e : Env) (ex : Bool) (s : S) :
    exec e (ros 0x1c4) ex s = .ok { s with
      L := s.LS 30#6, SAR := ifAddr s.REFETCH s.IA, alu := 0#32, aob := 0#32, u := 0#8, w := 0#8, EDST := 3#2,
      LSA := 30#6, St := { s.St with s4 := true, s5 := true, s6 := true, s7 := false },
      IVA := s.IVA || decide (e.memMax < ifAddr s.REFETCH s.IA),
      initMem := s.initMem || !decide (e.memMax < ifAddr s.REFETCH s.IA),
      ROAR := 328 ||| 2 * (ex || s.IA &&& 2#32 == 0#32).toNat + (ex || s.IA &&& 2#32 != 0#32 && s.REFETCH).toNat } := by
  rw [w1c4]; simp

/-- Word 1c7. -/
theorem w1c7 : ros 0x1c7 = {
      lu := 0, mv := 0, zp := 320, zf := 2, zn := 4, tr := 0, ws := 3, sf := 6, iv := 7, al := 0, wm := 0, up := 2,
      md := 0, lb := 0, mb := 0, dg := 0, ul := 1, ur := 1, ce := 14, lx := 0, tc := 1, ry := 0, ad := 1, ab := 56,
      bb := 0, ss := 24 } := by
  decide +kernel

/-- `1c7 qa700-j4 E=e 0+0>T |U:0 V:0 W:U>WL,U>WR>0 |LS:WS,E>LSA LS>L>LS |IV:IA+0/2>A |SS:E>S47 |A:I-FETCH B:0 Z:148 ` -/
theorem x1c7 (e : Env) (ex : Bool) (s : S) :
    exec e (ros 0x1c7) ex s = .ok { s with
      L := s.LS 30#6, SAR := ifAddr s.REFETCH s.IA, alu := 0#32, aob := 0#32, u := 0#8, w := 0#8, EDST := 3#2,
      LSA := 30#6, St := { s.St with s4 := true, s5 := true, s6 := true, s7 := false },
      IVA := s.IVA || decide (e.memMax < ifAddr s.REFETCH s.IA),
      initMem := s.initMem || !decide (e.memMax < ifAddr s.REFETCH s.IA),
      ROAR := 328 ||| 2 * (ex || s.IA &&& 2#32 == 0#32).toNat + (ex || s.IA &&& 2#32 != 0#32 && s.REFETCH).toNat } := by
  rw [w1c7]; simp

/-- Word 196. -/
theorem w196 : ros 0x196 = {
      lu := 5, mv := 0, zp := 256, zf := 2, zn := 4, tr := 1, ws := 4, sf := 6, iv := 0, al := 0, wm := 1, up := 2,
      md := 0, lb := 0, mb := 0, dg := 0, ul := 1, ur := 1, ce := 0, lx := 0, tc := 1, ry := 4, ad := 1, ab := 1,
      bb := 2, ss := 0 } := by
  decide +kernel

/-- `196 qa500-n1 E=0 H+0>R |U:PSW>U V:0 W:U>WL,U>WR>W>MMB |LS:FN,J>LSA LS>L>LS |A:1 B:S0 Z:108 ` -/
theorem x196 (e : Env) (ex : Bool) (s : S) :
    exec e (ros 0x196) ex s = .ok { s with
      R := s.H, L := s.LS (s.FN ++ s.J),
      M := putByte s.M s.MB (BitVec.setWidth 8 s.ILC <<< 6 ||| BitVec.setWidth 8 s.CC <<< 4 ||| BitVec.setWidth 8 s.PMASK),
      alu := s.H, aob := s.H,
      u := BitVec.setWidth 8 s.ILC <<< 6 ||| BitVec.setWidth 8 s.CC <<< 4 ||| BitVec.setWidth 8 s.PMASK,
      w := BitVec.setWidth 8 s.ILC <<< 6 ||| BitVec.setWidth 8 s.CC <<< 4 ||| BitVec.setWidth 8 s.PMASK, EDST := 3#2,
      LSA := s.FN ++ s.J, ROAR := 264 ||| 2 + s.St.s0.toNat } := by
  rw [w196]; simp

/-- Word 10a. -/
theorem w10a : ros 0x10a = {
      lu := 0, mv := 0, zp := 448, zf := 1, zn := 4, tr := 2, ws := 6, sf := 0, iv := 0, al := 0, wm := 0, up := 2,
      md := 0, lb := 0, mb := 0, dg := 0, ul := 1, ur := 1, ce := 0, lx := 0, tc := 1, ry := 2, ad := 1, ab := 1,
      bb := 0, ss := 0 } := by
  decide +kernel

/-- `10a qa500-c3 E=0 M+0>R0 |U:0 V:0 W:U>WL,U>WR>0 |LS:FN,MD>LSA R>LS |A:1 B:0 Z:1c4 ` -/
theorem x10a (e : Env) (ex : Bool) (s : S) :
    exec e (ros 0x10a) ex s = .ok { s with
      R := s.M &&& 4278190080#32 ||| s.R &&& 16777215#32, alu := s.M, aob := s.M, u := 0#8, w := 0#8, EDST := 3#2,
      LSA := s.FN ++ s.MD, ROAR := 0x1c6,
      LS := lsPut s.LS (s.FN ++ s.MD) (s.M &&& 4278190080#32 ||| s.R &&& 16777215#32) } := by
  rw [w10a]; simp

/-- Word 10b. -/
theorem w10b : ros 0x10b = {
      lu := 0, mv := 0, zp := 320, zf := 1, zn := 1, tr := 2, ws := 6, sf := 0, iv := 7, al := 0, wm := 0, up := 2,
      md := 0, lb := 0, mb := 0, dg := 0, ul := 1, ur := 1, ce := 0, lx := 0, tc := 1, ry := 2, ad := 1, ab := 56,
      bb := 0, ss := 0 } := by
  decide +kernel

/-- `10b qa500-q3 E=0 M+0>R0 |U:0 V:0 W:U>WL,U>WR>0 |LS:FN,MD>LSA R>LS |IV:IA+0/2>A |A:I-FETCH B:0 Z:144 SMIF` -/
theorem x10b (e : Env) (ex : Bool) (s : S) :
    exec e (ros 0x10b) ex s = .ok { s with
      R := s.M &&& 4278190080#32 ||| s.R &&& 16777215#32,
      SAR := if s.REFETCH = false ∧ ¬s.IA &&& 2#32 = 0#32 then s.SAR else ifAddr s.REFETCH s.IA, alu := s.M,
      aob := s.M, u := 0#8, w := 0#8, EDST := 3#2, LSA := s.FN ++ s.MD,
      IVA := s.IVA || (s.REFETCH || !s.IA &&& 2#32 != 0#32) && decide (e.memMax < ifAddr s.REFETCH s.IA),
      initMem := s.initMem || (s.REFETCH || !s.IA &&& 2#32 != 0#32) && !decide (e.memMax < ifAddr s.REFETCH s.IA),
      ROAR := 324 ||| 2 * (ex || s.IA &&& 2#32 == 0#32).toNat + (ex || s.IA &&& 2#32 != 0#32 && s.REFETCH).toNat,
      LS := lsPut s.LS (s.FN ++ s.MD) (s.M &&& 4278190080#32 ||| s.R &&& 16777215#32) } := by
  rw [w10b]; simp

/-- Word 19a. -/
theorem w19a : ros 0x19a = {
      lu := 0, mv := 0, zp := 1792, zf := 6, zn := 4, tr := 7, ws := 6, sf := 2, iv := 0, al := 0, wm := 0, up := 2,
      md := 0, lb := 0, mb := 0, dg := 0, ul := 1, ur := 1, ce := 0, lx := 0, tc := 1, ry := 1, ad := 1, ab := 0,
      bb := 0, ss := 0 } := by
  decide +kernel

/-- `19a qa700-q1 E=0 R+0>L |U:0 V:0 W:U>WL,U>WR>0 |LS:FN,MD>LSA LS>R>LS |A:0 B:0 Z:718 ` -/
theorem x19a (e : Env) (ex : Bool) (s : S) :
    exec e (ros 0x19a) ex s = .ok { s with
      R := s.LS (s.FN ++ s.MD), L := s.R, alu := s.R, aob := s.R, u := 0#8, w := 0#8, EDST := 3#2, LSA := s.FN ++ s.MD,
      ROAR := 0x718 } := by
  rw [w19a]; simp

/-- Word 718. -/
theorem w718 : ros 0x718 = {
      lu := 0, mv := 0, zp := 448, zf := 1, zn := 4, tr := 1, ws := 6, sf := 0, iv := 0, al := 0, wm := 0, up := 2,
      md := 0, lb := 0, mb := 0, dg := 0, ul := 1, ur := 1, ce := 0, lx := 0, tc := 0, ry := 1, ad := 1, ab := 2,
      bb := 1, ss := 0 } := by
  decide +kernel

/-- `718 qa700-n2 E=0 R-0>R |U:0 V:0 W:U>WL,U>WR>0 |LS:FN,MD>LSA R>LS |A:S0 B:1 Z:1c4 ` -/
theorem x718 (e : Env) (ex : Bool) (s : S) :
    exec e (ros 0x718) ex s = .ok { s with
      R := 4294967295#32 + s.R, alu := 4294967295#32 + s.R, aob := 4294967295#32 + s.R, u := 0#8, w := 0#8,
      EDST := 3#2, LSA := s.FN ++ s.MD, ROAR := 452 ||| 2 * s.St.s0.toNat + 1,
      LS := lsPut s.LS (s.FN ++ s.MD) (4294967295#32 + s.R) } := by
  rw [w718]; simp

/-- Word 1c5. -/
theorem w1c5 : ros 0x1c5 = {
      lu := 0, mv := 0, zp := 1792, zf := 5, zn := 4, tr := 1, ws := 4, sf := 7, iv := 0, al := 0, wm := 0, up := 2,
      md := 0, lb := 0, mb := 0, dg := 0, ul := 1, ur := 1, ce := 0, lx := 1, tc := 1, ry := 0, ad := 1, ab := 34,
      bb := 1, ss := 0 } := by
  decide +kernel

/-- `1c5 qa700-n4 E=0 0+L>R |U:0 V:0 W:U>WL,U>WR>0 |LS:FN,J>LSA 7 |A:TZ*BS B:1 Z:714 ` -/
theorem x1c5 (e : Env) (ex : Bool) (s : S) :
    exec e (ros 0x1c5) ex s = .ok { s with
      R := s.L, alu := s.L, aob := s.L, u := 0#8, w := 0#8, EDST := 3#2, LSA := s.FN ++ s.J,
      ROAR := 1812 ||| 2 * (s.aob &&& bsMask s.BS == 0#32).toNat + 1 } := by
  rw [w1c5]; simp

/-- Word 715. -/
theorem w715 : ros 0x715 = {
      lu := 0, mv := 0, zp := 256, zf := 0, zn := 4, tr := 9, ws := 4, sf := 7, iv := 0, al := 0, wm := 0, up := 2,
      md := 0, lb := 0, mb := 0, dg := 0, ul := 1, ur := 1, ce := 15, lx := 0, tc := 1, ry := 1, ad := 1, ab := 1,
      bb := 12, ss := 18 } := by
  decide +kernel

/-- `715 qj600-q6 E=f R+0>R,AN |U:0 V:0 W:U>WL,U>WR>0 |LS:FN,J>LSA 7 |SS:E->BS,T30->S3 |A:1 B:EXC Z:100 ` -/
theorem x715 (e : Env) (ex : Bool) (s : S) :
    exec e (ros 0x715) ex s = .ok { s with
      SAR := s.R &&& 16777215#32, alu := s.R, aob := s.R, u := 0#8, w := 0#8, BS := 15#4, EDST := 3#2,
      LSA := s.FN ++ s.J, St := { s.St with s3 := s.R &&& 2#32 != 0#32 },
      IVA := s.IVA || decide (e.memMax < s.R &&& 16777215#32),
      initMem := s.initMem || !decide (e.memMax < s.R &&& 16777215#32), ROAR := 256 ||| 2 + ex.toNat } := by
  rw [w715]; simp

/-- Word 714. -/
theorem w714 : ros 0x714 = {
      lu := 5, mv := 0, zp := 256, zf := 2, zn := 4, tr := 1, ws := 4, sf := 7, iv := 0, al := 0, wm := 1, up := 2,
      md := 0, lb := 0, mb := 0, dg := 0, ul := 1, ur := 1, ce := 0, lx := 0, tc := 1, ry := 4, ad := 1, ab := 1,
      bb := 0, ss := 0 } := by
  decide +kernel

/-- `714 qa500-c1 E=0 H+0>R |U:PSW>U V:0 W:U>WL,U>WR>W>MMB |LS:FN,J>LSA 7 |A:1 B:0 Z:108 ` -/
theorem x714 (e : Env) (ex : Bool) (s : S) :
    exec e (ros 0x714) ex s = .ok { s with
      R := s.H,
      M := putByte s.M s.MB (BitVec.setWidth 8 s.ILC <<< 6 ||| BitVec.setWidth 8 s.CC <<< 4 ||| BitVec.setWidth 8 s.PMASK),
      alu := s.H, aob := s.H,
      u := BitVec.setWidth 8 s.ILC <<< 6 ||| BitVec.setWidth 8 s.CC <<< 4 ||| BitVec.setWidth 8 s.PMASK,
      w := BitVec.setWidth 8 s.ILC <<< 6 ||| BitVec.setWidth 8 s.CC <<< 4 ||| BitVec.setWidth 8 s.PMASK, EDST := 3#2,
      LSA := s.FN ++ s.J, ROAR := 0x10a } := by
  rw [w714]; simp

/-- Word 192. -/
theorem w192 : ros 0x192 = {
      lu := 0, mv := 0, zp := 256, zf := 9, zn := 4, tr := 0, ws := 6, sf := 6, iv := 0, al := 0, wm := 11, up := 0,
      md := 0, lb := 1, mb := 0, dg := 0, ul := 1, ur := 1, ce := 0, lx := 0, tc := 1, ry := 0, ad := 1, ab := 1,
      bb := 0, ss := 0 } := by
  decide +kernel

/-- `192 qa400-c1 E=0 0+0>T |U:0 V:0 W:U>WL,U>WR>W>G |LS:FN,MD>LSA LS>L>LS |CNTlb=0 |A:1 B:0 Z:124 ` -/
theorem x192 (e : Env) (ex : Bool) (s : S) :
    exec e (ros 0x192) ex s = .ok { s with
      L := s.LS (s.FN ++ s.MD), alu := 0#32, aob := 0#32, u := 0#8, w := 0#8, G := 0#8, LB := 0#2, EDST := 3#2,
      LSA := s.FN ++ s.MD, G1NEG := false, G2NEG := false, ROAR := 0x126 } := by
  rw [w192]; simp

/-- Word 126. -/
theorem w126 : ros 0x126 = {
      lu := 7, mv := 0, zp := 320, zf := 2, zn := 4, tr := 0, ws := 3, sf := 6, iv := 7, al := 0, wm := 4, up := 2,
      md := 0, lb := 0, mb := 0, dg := 0, ul := 1, ur := 1, ce := 14, lx := 0, tc := 1, ry := 0, ad := 1, ab := 56,
      bb := 0, ss := 24 } := by
  decide +kernel

/-- `126 qa400-c3 E=e 0+0>T |U:LLB>U V:0 W:U>WL,U>WR>W27>PSW4 |LS:WS,E>LSA LS>L>LS |IV:IA+0/2>A |SS:E>S47 |A:I-FETCH B:0 Z:148 ` -/
theorem x126 (e : Env) (ex : Bool) (s : S) :
    exec e (ros 0x126) ex s = .ok { s with
      L := s.LS 30#6, SAR := ifAddr s.REFETCH s.IA, alu := 0#32, aob := 0#32, u := byteOf s.L s.LB,
      w := byteOf s.L s.LB, PMASK := BitVec.setWidth 4 (byteOf s.L s.LB), EDST := 3#2,
      CC := BitVec.setWidth 2 (byteOf s.L s.LB >>> 4), LSA := 30#6,
      St := { s.St with s4 := true, s5 := true, s6 := true, s7 := false },
      IVA := s.IVA || decide (e.memMax < ifAddr s.REFETCH s.IA),
      initMem := s.initMem || !decide (e.memMax < ifAddr s.REFETCH s.IA),
      ROAR := 328 ||| 2 * (ex || s.IA &&& 2#32 == 0#32).toNat + (ex || s.IA &&& 2#32 != 0#32 && s.REFETCH).toNat,
      timUp := s.timUp && !s.load, timIrq := s.timIrq && !s.load, load := false } := by
  rw [w126]; simp

end Verif.Cpu50
