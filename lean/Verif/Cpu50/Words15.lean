import Verif.Cpu50.Words9

/-!
# Model 2050: words of SLA

Written by a script from the model itself; each lemma is the effect of one word of `/repo/src/model2050/ros.txt`
on the processor, with the text of the word as the listing names its fields.
-/

namespace Verif.Cpu50

attribute [local simp] exec needsChan front condA condB combine abBits nextBase leftBus leftIn rightBus rightIn uBus vBus ceB moverL moverR adCin ivStep smif dgStep cinW adder adStep lateB alStep ssEarly trStep protect ssLate wsStep wmStep upStep finish Out.bind ceBit fpStats Nat.testBit_eq_decide_div_mod_eq mov_whole

/-- Word 72e. -/
theorem w72e : ros 0x72e = {
      lu := 2, mv := 0, zp := 2176, zf := 3, zn := 4, tr := 1, ws := 4, sf := 7, iv := 0, al := 13, wm := 3, up := 2,
      md := 0, lb := 0, mb := 0, dg := 0, ul := 1, ur := 1, ce := 0, lx := 0, tc := 1, ry := 1, ad := 1, ab := 0,
      bb := 1, ss := 36 } := by
  decide +kernel

/-- `72e qj110-e1 E=0 R+0>R AL:SR1>Q |U:R3>U V:0 W:U>WL,U>WR>W67>LB |LS:FN,J>LSA 7 |SS:L(0)->LSGNS |A:0 B:1 Z:88c ` -/
theorem x72e (e : Env) (ex : Bool) (s : S) :
    exec e (ros 0x72e) ex s = .ok { s with
      R := s.R >>> 1, alu := s.R, aob := s.R >>> 1, u := BitVec.setWidth 8 s.R, w := BitVec.setWidth 8 s.R,
      LB := BitVec.setWidth 2 s.R, EDST := 3#2, LSA := s.FN ++ s.J, Q := s.R &&& 1#32 != 0#32, LSGNS := BitVec.msb s.L,
      ROAR := 0x88d } := by
  rw [w72e]; simp

/-- Word 88d. -/
theorem w88d : ros 0x88d = {
      lu := 0, mv := 0, zp := 2176, zf := 2, zn := 4, tr := 1, ws := 4, sf := 7, iv := 0, al := 13, wm := 14, up := 2,
      md := 0, lb := 1, mb := 0, dg := 0, ul := 1, ur := 1, ce := 1, lx := 0, tc := 1, ry := 1, ad := 1, ab := 31,
      bb := 20, ss := 38 } := by
  decide +kernel

/-- `88d qj110-e2 E=1 R+0>R AL:SR1>Q |U:0 V:0 W:U>WL,U>WR>WR>F |LS:FN,J>LSA 7 |CNTlb- |SS:E(13)>WFN |A:L(0) B:LB=0 Z:888 ` -/
theorem x88d (e : Env) (ex : Bool) (s : S) :
    exec e (ros 0x88d) ex s = .ok { s with
      R := s.R >>> 1, alu := s.R, aob := s.R >>> 1, u := 0#8, w := 0#8, F := 0#8, LB := s.LB - 1#2, EDST := 3#2,
      mvf := 1#3, LSA := s.FN ++ s.J, Q := s.R &&& 1#32 != 0#32,
      ROAR := 2184 ||| 2 * (BitVec.msb s.L).toNat + (s.LB == 0#2).toNat } := by
  rw [w88d]; simp

/-- Word 888. -/
theorem w888 : ros 0x888 = {
      lu := 2, mv := 0, zp := 2176, zf := 11, zn := 4, tr := 7, ws := 4, sf := 7, iv := 0, al := 9, wm := 10, up := 2,
      md := 0, lb := 1, mb := 0, dg := 0, ul := 1, ur := 1, ce := 0, lx := 1, tc := 1, ry := 0, ad := 1, ab := 0,
      bb := 20, ss := 0 } := by
  decide +kernel

/-- `888 qj110-e4 E=0 0+L>L AL:F>SL1>F |U:R3>U V:0 W:U>WL,U>WR>WL>G2 |LS:FN,J>LSA 7 |CNTlb- |A:0 B:LB=0 Z:8ac ` -/
theorem x888 (e : Env) (ex : Bool) (s : S) :
    exec e (ros 0x888) ex s = .ok { s with
      L := s.L <<< 1 ||| bitW (s.F &&& 8#8 != 0#8), alu := s.L, aob := s.L <<< 1 ||| bitW (s.F &&& 8#8 != 0#8),
      u := BitVec.setWidth 8 s.R, w := BitVec.setWidth 8 s.R,
      F := (BitVec.setWidth 8 (s.L >>> 31) ||| s.F <<< 1) &&& 15#8,
      G := s.G &&& 240#8 ||| BitVec.setWidth 8 s.R &&& 15#8, LB := s.LB - 1#2, EDST := 3#2, LSA := s.FN ++ s.J,
      G2NEG := false, ROAR := 2220 ||| (s.LB == 0#2).toNat } := by
  rw [w888]; simp

/-- Word 889. -/
theorem w889 : ros 0x889 = {
      lu := 2, mv := 0, zp := 2176, zf := 11, zn := 4, tr := 0, ws := 4, sf := 7, iv := 0, al := 0, wm := 10, up := 2,
      md := 0, lb := 0, mb := 0, dg := 0, ul := 1, ur := 1, ce := 0, lx := 0, tc := 1, ry := 0, ad := 1, ab := 0,
      bb := 1, ss := 0 } := by
  decide +kernel

/-- `889 qj110-j4 E=0 0+0>T |U:R3>U V:0 W:U>WL,U>WR>WL>G2 |LS:FN,J>LSA 7 |A:0 B:1 Z:8ac ` -/
theorem x889 (e : Env) (ex : Bool) (s : S) :
    exec e (ros 0x889) ex s = .ok { s with
      alu := 0#32, aob := 0#32, u := BitVec.setWidth 8 s.R, w := BitVec.setWidth 8 s.R,
      G := s.G &&& 240#8 ||| BitVec.setWidth 8 s.R &&& 15#8, EDST := 3#2, LSA := s.FN ++ s.J, G2NEG := false,
      ROAR := 0x8ad } := by
  rw [w889]; simp

/-- Word 88a. -/
theorem w88a : ros 0x88a = {
      lu := 2, mv := 0, zp := 2176, zf := 2, zn := 4, tr := 7, ws := 4, sf := 7, iv := 0, al := 0, wm := 10, up := 2,
      md := 0, lb := 0, mb := 0, dg := 2, ul := 1, ur := 1, ce := 0, lx := 1, tc := 0, ry := 0, ad := 5, ab := 0,
      bb := 0, ss := 0 } := by
  decide +kernel

/-- `88a qj110-a3 E=0 0-L>L AD:BC^C |U:R3>U V:0 W:U>WL,U>WR>WL>G2 |LS:FN,J>LSA 7 |DG:HOT1>ADDR |A:0 B:0 Z:888 ` -/
theorem x88a (e : Env) (ex : Bool) (s : S) :
    exec e (ros 0x88a) ex s = .ok { s with
      L := ~~~s.L + 1#32, alu := ~~~s.L + 1#32, aob := ~~~s.L + 1#32, u := BitVec.setWidth 8 s.R,
      w := BitVec.setWidth 8 s.R, G := s.G &&& 240#8 ||| BitVec.setWidth 8 s.R &&& 15#8, EDST := 3#2,
      LSA := s.FN ++ s.J, G2NEG := false, ROAR := 0x888 } := by
  rw [w88a]; simp

/-- Word 88b. -/
theorem w88b : ros 0x88b = {
      lu := 2, mv := 0, zp := 2176, zf := 11, zn := 4, tr := 7, ws := 4, sf := 7, iv := 0, al := 0, wm := 10, up := 2,
      md := 0, lb := 0, mb := 0, dg := 2, ul := 1, ur := 1, ce := 0, lx := 1, tc := 0, ry := 0, ad := 1, ab := 0,
      bb := 1, ss := 0 } := by
  decide +kernel

/-- `88b qj110-n4 E=0 0-L>L |U:R3>U V:0 W:U>WL,U>WR>WL>G2 |LS:FN,J>LSA 7 |DG:HOT1>ADDR |A:0 B:1 Z:8ac ` -/
theorem x88b (e : Env) (ex : Bool) (s : S) :
    exec e (ros 0x88b) ex s = .ok { s with
      L := ~~~s.L + 1#32, alu := ~~~s.L + 1#32, aob := ~~~s.L + 1#32, u := BitVec.setWidth 8 s.R,
      w := BitVec.setWidth 8 s.R, G := s.G &&& 240#8 ||| BitVec.setWidth 8 s.R &&& 15#8, EDST := 3#2,
      LSA := s.FN ++ s.J, G2NEG := false, ROAR := 0x8ad } := by
  rw [w88b]; simp

/-- Word 8ac. -/
theorem w8ac : ros 0x8ac = {
      lu := 0, mv := 0, zp := 2176, zf := 11, zn := 4, tr := 7, ws := 4, sf := 7, iv := 0, al := 9, wm := 0, up := 2,
      md := 0, lb := 1, mb := 0, dg := 0, ul := 1, ur := 1, ce := 0, lx := 1, tc := 1, ry := 0, ad := 1, ab := 0,
      bb := 20, ss := 0 } := by
  decide +kernel

/-- `8ac qj110-e5 E=0 0+L>L AL:F>SL1>F |U:0 V:0 W:U>WL,U>WR>0 |LS:FN,J>LSA 7 |CNTlb- |A:0 B:LB=0 Z:8ac ` -/
theorem x8ac (e : Env) (ex : Bool) (s : S) :
    exec e (ros 0x8ac) ex s = .ok { s with
      L := s.L <<< 1 ||| bitW (s.F &&& 8#8 != 0#8), alu := s.L, aob := s.L <<< 1 ||| bitW (s.F &&& 8#8 != 0#8),
      u := 0#8, w := 0#8, F := (BitVec.setWidth 8 (s.L >>> 31) ||| s.F <<< 1) &&& 15#8, LB := s.LB - 1#2, EDST := 3#2,
      LSA := s.FN ++ s.J, ROAR := 2220 ||| (s.LB == 0#2).toNat } := by
  rw [w8ac]; simp

/-- Word 8ad. -/
theorem w8ad : ros 0x8ad = {
      lu := 0, mv := 0, zp := 2176, zf := 11, zn := 4, tr := 0, ws := 4, sf := 7, iv := 0, al := 0, wm := 1, up := 2,
      md := 0, lb := 0, mb := 0, dg := 5, ul := 1, ur := 1, ce := 0, lx := 1, tc := 1, ry := 0, ad := 1, ab := 1,
      bb := 23, ss := 0 } := by
  decide +kernel

/-- `8ad qj110-g5 E=0 0+L>T |U:0 V:0 W:U>WL,U>WR>W>MMB |LS:FN,J>LSA 7 |DG:G2-1 |A:1 B:G2=0 Z:8ac ` -/
theorem x8ad (e : Env) (ex : Bool) (s : S) :
    exec e (ros 0x8ad) ex s = .ok { s with
      M := putByte s.M s.MB 0#8, alu := s.L, aob := s.L, u := 0#8, w := 0#8, G := s.G &&& 240#8 ||| s.G - 1#8 &&& 15#8,
      EDST := 3#2, LSA := s.FN ++ s.J, G2NEG := s.G2NEG || s.G &&& 15#8 == 0#8,
      ROAR := 2220 ||| 2 + (s.G &&& 15#8 == 0#8).toNat } := by
  rw [w8ad]; simp

/-- Word 8ae. -/
theorem w8ae : ros 0x8ae = {
      lu := 1, mv := 2, zp := 2176, zf := 11, zn := 4, tr := 7, ws := 4, sf := 7, iv := 0, al := 16, wm := 1, up := 2,
      md := 0, lb := 0, mb := 0, dg := 5, ul := 2, ur := 3, ce := 0, lx := 1, tc := 1, ry := 0, ad := 1, ab := 1,
      bb := 23, ss := 0 } := by
  decide +kernel

/-- `8ae qj110-e6 E=0 0+L>L AL:SL4>F |U:MD,F>U V:MMB>V W:V>WL,?>WR>W>MMB |LS:FN,J>LSA 7 |DG:G2-1 |A:1 B:G2=0 Z:8ac ` -/
theorem x8ae (e : Env) (ex : Bool) (s : S) :
    exec e (ros 0x8ae) ex s = .ok { s with
      L := s.L <<< 4,
      M := putByte s.M s.MB (byteOf s.M s.MB &&& 240#8 ||| mvfR s.mvf (BitVec.setWidth 8 s.MD <<< 4 ||| s.F) (byteOf s.M s.MB)),
      alu := s.L, aob := s.L <<< 4, u := BitVec.setWidth 8 s.MD <<< 4 ||| s.F,
      w := byteOf s.M s.MB &&& 240#8 ||| mvfR s.mvf (BitVec.setWidth 8 s.MD <<< 4 ||| s.F) (byteOf s.M s.MB),
      F := hiDig s.L, G := s.G &&& 240#8 ||| s.G - 1#8 &&& 15#8,
      EDST := if byteOf s.M s.MB &&& 252#8 = 32#8 then BitVec.setWidth 2 (byteOf s.M s.MB) else 3#2,
      LSA := s.FN ++ s.J, G2NEG := s.G2NEG || s.G &&& 15#8 == 0#8, ROAR := 2220 ||| 2 + (s.G &&& 15#8 == 0#8).toNat } := by
  rw [w8ae]; simp

/-- Word 8af. -/
theorem w8af : ros 0x8af = {
      lu := 1, mv := 2, zp := 2176, zf := 1, zn := 4, tr := 0, ws := 4, sf := 7, iv := 0, al := 0, wm := 0, up := 2,
      md := 0, lb := 0, mb := 0, dg := 0, ul := 2, ur := 3, ce := 0, lx := 1, tc := 1, ry := 0, ad := 1, ab := 13,
      bb := 16, ss := 0 } := by
  decide +kernel

/-- `8af qj110-j6 E=0 0+L>T |U:MD,F>U V:MMB>V W:V>WL,?>WR>0 |LS:FN,J>LSA 7 |A:LSGNS B:T(0) Z:884 ` -/
theorem x8af (e : Env) (ex : Bool) (s : S) :
    exec e (ros 0x8af) ex s = .ok { s with
      alu := s.L, aob := s.L, u := BitVec.setWidth 8 s.MD <<< 4 ||| s.F,
      w := byteOf s.M s.MB &&& 240#8 ||| mvfR s.mvf (BitVec.setWidth 8 s.MD <<< 4 ||| s.F) (byteOf s.M s.MB),
      EDST := if byteOf s.M s.MB &&& 252#8 = 32#8 then BitVec.setWidth 2 (byteOf s.M s.MB) else 3#2,
      LSA := s.FN ++ s.J, ROAR := 2180 ||| 2 * s.LSGNS.toNat + (BitVec.msb s.aob).toNat } := by
  rw [w8af]; simp

/-- Word 884. -/
theorem w884 : ros 0x884 = {
      lu := 0, mv := 0, zp := 2176, zf := 0, zn := 4, tr := 0, ws := 6, sf := 4, iv := 0, al := 0, wm := 0, up := 2,
      md := 0, lb := 0, mb := 0, dg := 0, ul := 1, ur := 1, ce := 0, lx := 1, tc := 1, ry := 0, ad := 1, ab := 19,
      bb := 1, ss := 41 } := by
  decide +kernel

/-- `884 qj110-n7 E=0 0+L>T |U:0 V:0 W:U>WL,U>WR>0 |LS:FN,MD>LSA L>LS |SS:SETCRALG |A:WR=0 B:1 Z:880 ` -/
theorem x884 (e : Env) (ex : Bool) (s : S) :
    exec e (ros 0x884) ex s = .ok { s with
      alu := s.L, aob := s.L, u := 0#8, w := 0#8, EDST := 3#2,
      CC := if s.L = 0#32 then 0#2 else if BitVec.msb s.L = true then 1#2 else 2#2, LSA := s.FN ++ s.MD,
      ROAR := 2176 ||| 2 * (s.w &&& 15#8 == 0#8).toNat + 1, LS := lsPut s.LS (s.FN ++ s.MD) s.L } := by
  rw [w884]; simp

/-- Word 885. -/
theorem w885 : ros 0x885 = {
      lu := 0, mv := 0, zp := 2176, zf := 0, zn := 4, tr := 7, ws := 6, sf := 4, iv := 0, al := 3, wm := 0, up := 2,
      md := 0, lb := 0, mb := 0, dg := 0, ul := 1, ur := 1, ce := 0, lx := 1, tc := 1, ry := 0, ad := 1, ab := 0,
      bb := 1, ss := 0 } := by
  decide +kernel

/-- `885 qj110-e7 E=0 0+L>L AL:+SGN>T |U:0 V:0 W:U>WL,U>WR>0 |LS:FN,MD>LSA L>LS |A:0 B:1 Z:880 ` -/
theorem x885 (e : Env) (ex : Bool) (s : S) :
    exec e (ros 0x885) ex s = .ok { s with
      L := s.L &&& 2147483647#32, alu := s.L, aob := s.L &&& 2147483647#32, u := 0#8, w := 0#8, EDST := 3#2,
      LSA := s.FN ++ s.MD, ROAR := 0x881, LS := lsPut s.LS (s.FN ++ s.MD) (s.L &&& 2147483647#32) } := by
  rw [w885]; simp

/-- Word 886. -/
theorem w886 : ros 0x886 = {
      lu := 0, mv := 0, zp := 2176, zf := 0, zn := 4, tr := 7, ws := 6, sf := 4, iv := 0, al := 4, wm := 0, up := 2,
      md := 0, lb := 0, mb := 0, dg := 2, ul := 1, ur := 1, ce := 0, lx := 1, tc := 0, ry := 0, ad := 1, ab := 19,
      bb := 1, ss := 41 } := by
  decide +kernel

/-- `886 qj110-j7 E=0 0-L>L AL:-SGN>T |U:0 V:0 W:U>WL,U>WR>0 |LS:FN,MD>LSA L>LS |DG:HOT1>ADDR |SS:SETCRALG |A:WR=0 B:1 Z:880 ` -/
theorem x886 (e : Env) (ex : Bool) (s : S) :
    exec e (ros 0x886) ex s = .ok { s with
      L := ~~~s.L + 1#32 ||| 2147483648#32, alu := ~~~s.L + 1#32, aob := ~~~s.L + 1#32 ||| 2147483648#32, u := 0#8,
      w := 0#8, EDST := 3#2, CC := if BitVec.msb (~~~s.L + 1#32) = true ∨ (2147483648#32).msb = true then 1#2 else 2#2,
      LSA := s.FN ++ s.MD, ROAR := 2176 ||| 2 * (s.w &&& 15#8 == 0#8).toNat + 1,
      LS := lsPut s.LS (s.FN ++ s.MD) (~~~s.L + 1#32 ||| 2147483648#32) } := by
  rw [w886]; simp

/-- Word 887. -/
theorem w887 : ros 0x887 = {
      lu := 0, mv := 0, zp := 2176, zf := 0, zn := 6, tr := 7, ws := 6, sf := 4, iv := 0, al := 4, wm := 0, up := 2,
      md := 0, lb := 0, mb := 0, dg := 2, ul := 1, ur := 1, ce := 1, lx := 1, tc := 0, ry := 0, ad := 5, ab := 19,
      bb := 30, ss := 40 } := by
  decide +kernel

/-- `887 qj110-a7 E=1 0-L>L AD:BC^C AL:-SGN>T |U:0 V:0 W:U>WL,U>WR>0 |LS:FN,MD>LSA L>LS |DG:HOT1>ADDR |SS:E(23)->CR |A:WR=0 B:(CAR) Z:880 B|(A=0)>B` -/
theorem x887 (e : Env) (ex : Bool) (s : S) :
    exec e (ros 0x887) ex s = .ok { s with
      L := ~~~s.L + 1#32 ||| 2147483648#32, alu := ~~~s.L + 1#32, aob := ~~~s.L + 1#32 ||| 2147483648#32, u := 0#8,
      w := 0#8, EDST := 3#2, CC := 1#2, LSA := s.FN ++ s.MD,
      ROAR := (2176 ||| 2 * (s.w &&& 15#8 == 0#8).toNat + (!s.w &&& 15#8 == 0#8).toNat) / 4 * 4 ||| 2 * (s.w &&& 15#8 == 0#8).toNat + (!s.w &&& 15#8 == 0#8 || BitVec.msb (carriesOf (~~~s.L) (0#32) (~~~s.L + 1#32)) ^^ BitVec.getMsbD (carriesOf (~~~s.L) (0#32) (~~~s.L + 1#32)) 1 || !s.w &&& 15#8 == 0#8).toNat,
      LS := lsPut s.LS (s.FN ++ s.MD) (~~~s.L + 1#32 ||| 2147483648#32) } := by
  rw [w887]; simp

/-- Word 881. -/
theorem w881 : ros 0x881 = {
      lu := 0, mv := 0, zp := 512, zf := 6, zn := 4, tr := 3, ws := 4, sf := 7, iv := 0, al := 20, wm := 0, up := 0,
      md := 0, lb := 0, mb := 1, dg := 0, ul := 1, ur := 1, ce := 2, lx := 2, tc := 1, ry := 0, ad := 1, ab := 1,
      bb := 1, ss := 38 } := by
  decide +kernel

/-- `881 qj110-g8 E=2 0+SGN>M AL:SR4>F |U:0 V:0 W:U>WL,U>WR>0 |LS:FN,J>LSA 7 |CNTmb=0 |SS:E(13)>WFN |A:1 B:1 Z:218 ` -/
theorem x881 (e : Env) (ex : Bool) (s : S) :
    exec e (ros 0x881) ex s = .ok { s with
      M := 134217728#32, alu := 2147483648#32, aob := 134217728#32, u := 0#8, w := 0#8, F := loDig 2147483648#32,
      MB := 0#2, EDST := 3#2, mvf := 2#3, LSA := s.FN ++ s.J, ROAR := 0x21b } := by
  rw [w881]; simp

/-- Word 882. -/
theorem w882 : ros 0x882 = {
      lu := 0, mv := 0, zp := 512, zf := 6, zn := 4, tr := 3, ws := 4, sf := 7, iv := 0, al := 20, wm := 0, up := 0,
      md := 0, lb := 0, mb := 1, dg := 0, ul := 1, ur := 1, ce := 2, lx := 2, tc := 1, ry := 0, ad := 1, ab := 1,
      bb := 1, ss := 38 } := by
  decide +kernel

/-- `882 qj110-q8 E=2 0+SGN>M AL:SR4>F |U:0 V:0 W:U>WL,U>WR>0 |LS:FN,J>LSA 7 |CNTmb=0 |SS:E(13)>WFN |A:1 B:1 Z:218 ` -/
theorem x882 (e : Env) (ex : Bool) (s : S) :
    exec e (ros 0x882) ex s = .ok { s with
      M := 134217728#32, alu := 2147483648#32, aob := 134217728#32, u := 0#8, w := 0#8, F := loDig 2147483648#32,
      MB := 0#2, EDST := 3#2, mvf := 2#3, LSA := s.FN ++ s.J, ROAR := 0x21b } := by
  rw [w882]; simp

end Verif.Cpu50
