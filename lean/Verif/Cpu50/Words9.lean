import Verif.Cpu50.Words8

/-!
# Model 2050: words of EXECUTE

Written by a script from the model itself; each lemma is the effect of one word of `/repo/src/model2050/ros.txt`
on the processor, with the text of the word as the listing names its fields.
-/

namespace Verif.Cpu50

attribute [local simp] exec needsChan front condA condB combine abBits nextBase leftBus leftIn rightBus rightIn uBus vBus ceB moverL moverR adCin ivStep smif dgStep cinW adder adStep lateB alStep ssEarly trStep protect ssLate wsStep wmStep upStep finish Out.bind ceBit fpStats Nat.testBit_eq_decide_div_mod_eq mov_whole

/-- Word 710. -/
theorem w710 : ros 0x710 = {
      lu := 0, mv := 0, zp := 1856, zf := 0, zn := 7, tr := 6, ws := 4, sf := 7, iv := 0, al := 0, wm := 0, up := 2,
      md := 0, lb := 0, mb := 0, dg := 0, ul := 1, ur := 1, ce := 15, lx := 1, tc := 1, ry := 0, ad := 1, ab := 9,
      bb := 22, ss := 18 } := by
  decide +kernel

/-- `710 qe400-e1 E=f 0+L>R,A |U:0 V:0 W:U>WL,U>WR>0 |LS:FN,J>LSA 7 |SS:E->BS,T30->S3 |A:S7 B:MD=0 Z:740 B|(A=1)>B` -/
theorem x710 (e : Env) (ex : Bool) (s : S) :
    exec e (ros 0x710) ex s = .ok { s with
      R := s.L, SAR := s.L &&& 16777215#32, alu := s.L, aob := s.L, u := 0#8, w := 0#8, BS := 15#4, EDST := 3#2,
      LSA := s.FN ++ s.J, St := { s.St with s3 := s.L &&& 2#32 != 0#32 }, initMem := true,
      ROAR := 1856 ||| 2 * s.St.s7.toNat + (s.MD == 0#4 || s.St.s7).toNat } := by
  rw [w710]; simp

/-- Word 740. -/
theorem w740 : ros 0x740 = {
      lu := 0, mv := 0, zp := 1856, zf := 1, zn := 7, tr := 0, ws := 6, sf := 6, iv := 0, al := 0, wm := 2, up := 1,
      md := 0, lb := 1, mb := 0, dg := 0, ul := 1, ur := 0, ce := 1, lx := 0, tc := 1, ry := 0, ad := 1, ab := 29,
      bb := 5, ss := 38 } := by
  decide +kernel

/-- `740 qe400-c2 E=1 0+0>T |U:0 V:0 W:U>WL,E>WR>W67>MB |LS:FN,MD>LSA LS>L>LS |CNTlb=3 |SS:E(13)>WFN |A:R(31) B:S3 Z:744 B|(A=1)>B` -/
theorem x740 (e : Env) (ex : Bool) (s : S) :
    exec e (ros 0x740) ex s = .ok { s with
      L := s.LS (s.FN ++ s.MD), alu := 0#32, aob := 0#32, u := 0#8, w := 1#8, MB := 1#2, LB := 3#2, EDST := 3#2,
      mvf := 1#3, LSA := s.FN ++ s.MD,
      ROAR := 1860 ||| 2 * (s.R &&& 1#32 != 0#32).toNat + (s.St.s3 || s.R &&& 1#32 != 0#32).toNat } := by
  rw [w740]; simp

/-- Word 741. -/
theorem w741 : ros 0x741 = {
      lu := 0, mv := 0, zp := 1856, zf := 1, zn := 7, tr := 7, ws := 4, sf := 7, iv := 0, al := 0, wm := 2, up := 1,
      md := 0, lb := 1, mb := 0, dg := 0, ul := 1, ur := 0, ce := 1, lx := 0, tc := 1, ry := 0, ad := 1, ab := 29,
      bb := 5, ss := 38 } := by
  decide +kernel

/-- `741 qe400-g2 E=1 0+0>L |U:0 V:0 W:U>WL,E>WR>W67>MB |LS:FN,J>LSA 7 |CNTlb=3 |SS:E(13)>WFN |A:R(31) B:S3 Z:744 B|(A=1)>B` -/
theorem x741 (e : Env) (ex : Bool) (s : S) :
    exec e (ros 0x741) ex s = .ok { s with
      L := 0#32, alu := 0#32, aob := 0#32, u := 0#8, w := 1#8, MB := 1#2, LB := 3#2, EDST := 3#2, mvf := 1#3,
      LSA := s.FN ++ s.J, ROAR := 1860 ||| 2 * (s.R &&& 1#32 != 0#32).toNat + (s.St.s3 || s.R &&& 1#32 != 0#32).toNat } := by
  rw [w741]; simp

/-- Word 744. -/
theorem w744 : ros 0x744 = {
      lu := 7, mv := 0, zp := 1856, zf := 2, zn := 4, tr := 3, ws := 4, sf := 7, iv := 0, al := 30, wm := 15, up := 2,
      md := 0, lb := 0, mb := 0, dg := 0, ul := 1, ur := 1, ce := 0, lx := 0, tc := 1, ry := 0, ad := 1, ab := 1,
      bb := 0, ss := 0 } := by
  decide +kernel

/-- `744 qe400-c4 E=0 0+0>M AL:D |U:LLB>U V:0 W:U>WL,U>WR>W>MD,F |LS:FN,J>LSA 7 |A:1 B:0 Z:748 ` -/
theorem x744 (e : Env) (ex : Bool) (s : S) :
    exec e (ros 0x744) ex s = .ok { s with
      M := s.SDR, alu := 0#32, aob := s.SDR, u := byteOf s.L s.LB, w := byteOf s.L s.LB, F := byteOf s.L s.LB &&& 15#8,
      MD := BitVec.setWidth 4 (byteOf s.L s.LB >>> 4), EDST := 3#2, LSA := s.FN ++ s.J, ROAR := 0x74a } := by
  rw [w744]; simp

/-- Word 745. -/
theorem w745 : ros 0x745 = {
      lu := 7, mv := 0, zp := 1920, zf := 1, zn := 4, tr := 7, ws := 4, sf := 7, iv := 0, al := 30, wm := 15, up := 2,
      md := 0, lb := 0, mb := 0, dg := 0, ul := 1, ur := 1, ce := 0, lx := 0, tc := 1, ry := 0, ad := 1, ab := 0,
      bb := 0, ss := 15 } := by
  decide +kernel

/-- `745 qe400-g4 E=0 0+0>L AL:D |U:LLB>U V:0 W:U>WL,U>WR>W>MD,F |LS:FN,J>LSA 7 |SS:B0,1SYL |A:0 B:0 Z:784 ` -/
theorem x745 (e : Env) (ex : Bool) (s : S) :
    exec e (ros 0x745) ex s = .ok { s with
      L := s.SDR, alu := 0#32, aob := s.SDR, u := byteOf s.L s.LB, w := byteOf s.L s.LB, F := byteOf s.L s.LB &&& 15#8,
      MD := BitVec.setWidth 4 (byteOf s.L s.LB >>> 4), EDST := 3#2, LSA := s.FN ++ s.J,
      St := { s.St with s1 := s.SDR &&& 4026531840#32 == 0#32 }, SYLS1 := s.SDR &&& 49152#32 == 0#32, ROAR := 0x784 } := by
  rw [w745]; simp

/-- Word 74a. -/
theorem w74a : ros 0x74a = {
      lu := 1, mv := 2, zp := 1856, zf := 4, zn := 4, tr := 0, ws := 4, sf := 7, iv := 0, al := 0, wm := 1, up := 3,
      md := 0, lb := 0, mb := 1, dg := 0, ul := 3, ur := 3, ce := 1, lx := 0, tc := 1, ry := 0, ad := 1, ab := 1,
      bb := 0, ss := 25 } := by
  decide +kernel

/-- `74a qe400-c5 E=1 0+0>T |U:MD,F>U V:MMB>V W:?>WL,?>WR>W>MMB |LS:FN,J>LSA 7 |CNTmb+ |SS:S47|E |A:1 B:0 Z:750 ` -/
theorem x74a (e : Env) (ex : Bool) (s : S) :
    exec e (ros 0x74a) ex s = .ok { s with
      M := putByte s.M s.MB (mvfL s.mvf (BitVec.setWidth 8 s.MD <<< 4 ||| s.F) (byteOf s.M s.MB) ||| mvfR s.mvf (BitVec.setWidth 8 s.MD <<< 4 ||| s.F) (byteOf s.M s.MB)),
      alu := 0#32, aob := 0#32, u := BitVec.setWidth 8 s.MD <<< 4 ||| s.F,
      w := mvfL s.mvf (BitVec.setWidth 8 s.MD <<< 4 ||| s.F) (byteOf s.M s.MB) ||| mvfR s.mvf (BitVec.setWidth 8 s.MD <<< 4 ||| s.F) (byteOf s.M s.MB),
      MB := s.MB + 1#2, EDST := if byteOf s.M s.MB &&& 252#8 = 32#8 then BitVec.setWidth 2 (byteOf s.M s.MB) else 3#2,
      LSA := s.FN ++ s.J, St := { s.St with s7 := true }, ROAR := 0x752 } := by
  rw [w74a]; simp

/-- Word 752. -/
theorem w752 : ros 0x752 = {
      lu := 0, mv := 2, zp := 1856, zf := 5, zn := 4, tr := 31, ws := 4, sf := 7, iv := 0, al := 0, wm := 13, up := 0,
      md := 0, lb := 1, mb := 0, dg := 0, ul := 2, ur := 1, ce := 0, lx := 0, tc := 1, ry := 2, ad := 1, ab := 1,
      bb := 0, ss := 12 } := by
  decide +kernel

/-- `752 qe400-c6 E=0 M+0>J |U:0 V:MMB>V W:V>WL,U>WR>WL>MD |LS:FN,J>LSA 7 |CNTlb=0 |SS:X0,B0,1SYL |A:1 B:0 Z:754 ` -/
theorem x752 (e : Env) (ex : Bool) (s : S) :
    exec e (ros 0x752) ex s = .ok { s with
      alu := s.M, aob := s.M, u := 0#8, w := byteOf s.M s.MB &&& 240#8,
      MD := BitVec.setWidth 4 ((byteOf s.M s.MB &&& 240#8) >>> 4), J := BitVec.setWidth 4 (s.M >>> 16), LB := 0#2,
      EDST := if byteOf s.M s.MB &&& 252#8 = 32#8 then BitVec.setWidth 2 (byteOf s.M s.MB) else 3#2,
      LSA := s.FN ++ BitVec.setWidth 4 (s.M >>> 16),
      St := { s.St with s0 := s.M &&& 983040#32 == 0#32, s1 := s.M &&& 4026531840#32 == 0#32 },
      SYLS1 := decide (s.M >>> 28 ≤ 3#32), ROAR := 0x756 } := by
  rw [w752]; simp

/-- Word 756. -/
theorem w756 : ros 0x756 = {
      lu := 0, mv := 2, zp := 256, zf := 6, zn := 0, tr := 27, ws := 6, sf := 6, iv := 0, al := 0, wm := 1, up := 3,
      md := 0, lb := 1, mb := 1, dg := 0, ul := 1, ur := 2, ce := 0, lx := 0, tc := 1, ry := 2, ad := 1, ab := 63,
      bb := 3, ss := 45 } := by
  decide +kernel

/-- `756 qe400-c8 E=0 M+0>MD |U:0 V:MMB>V W:U>WL,V>WR>W>MMB |LS:FN,MD>LSA LS>L>LS |CNTlbmb+ |SS:1->REFETCH |A:RX.S0 B:S1 Z:100 M(03)>>ROAR` -/
theorem x756 (e : Env) (ex : Bool) (s : S) :
    exec e (ros 0x756) ex s = .ok { s with
      L := s.LS (s.FN ++ s.MD), M := putByte s.M s.MB (byteOf s.M s.MB &&& 15#8), alu := s.M, aob := s.M, u := 0#8,
      w := byteOf s.M s.MB &&& 15#8, MD := BitVec.setWidth 4 (s.M >>> 20), MB := s.MB + 1#2, LB := s.LB + 1#2,
      EDST := if byteOf s.M s.MB &&& 252#8 = 32#8 then BitVec.setWidth 2 (byteOf s.M s.MB) else 3#2,
      LSA := s.FN ++ s.MD, REFETCH := true,
      ROAR := 256 ||| nib s.M 7 <<< 2 ||| 2 * (s.St.s0 && s.M &&& 3221225472#32 == 1073741824#32).toNat + s.St.s1.toNat } := by
  rw [w756]; simp

/-- Word 784. -/
theorem w784 : ros 0x784 = {
      lu := 0, mv := 0, zp := 1792, zf := 0, zn := 4, tr := 3, ws := 4, sf := 7, iv := 0, al := 0, wm := 0, up := 0,
      md := 0, lb := 1, mb := 0, dg := 0, ul := 1, ur := 1, ce := 1, lx := 4, tc := 1, ry := 0, ad := 1, ab := 12,
      bb := 1, ss := 25 } := by
  decide +kernel

/-- `784 qe400-g5 E=1 0+LRL>M |U:0 V:0 W:U>WL,U>WR>0 |LS:FN,J>LSA 7 |CNTlb=0 |SS:S47|E |A:1SYLS B:1 Z:700 ` -/
theorem x784 (e : Env) (ex : Bool) (s : S) :
    exec e (ros 0x784) ex s = .ok { s with
      M := s.L <<< 16, alu := s.L <<< 16, aob := s.L <<< 16, u := 0#8, w := 0#8, LB := 0#2, EDST := 3#2,
      LSA := s.FN ++ s.J, St := { s.St with s7 := true }, ROAR := 1792 ||| 2 * s.SYLS1.toNat + 1 } := by
  rw [w784]; simp

/-- Word 701. -/
theorem w701 : ros 0x701 = {
      lu := 1, mv := 2, zp := 1920, zf := 2, zn := 4, tr := 6, ws := 4, sf := 7, iv := 0, al := 0, wm := 1, up := 2,
      md := 0, lb := 0, mb := 0, dg := 0, ul := 3, ur := 3, ce := 0, lx := 6, tc := 1, ry := 1, ad := 1, ab := 1,
      bb := 0, ss := 45 } := by
  decide +kernel

/-- `701 qe400-g6 E=0 R+4>R,A |U:MD,F>U V:MMB>V W:?>WL,?>WR>W>MMB |LS:FN,J>LSA 7 |SS:1->REFETCH |A:1 B:0 Z:788 ` -/
theorem x701 (e : Env) (ex : Bool) (s : S) :
    exec e (ros 0x701) ex s = .ok { s with
      R := 4#32 + s.R,
      M := putByte s.M s.MB (mvfL s.mvf (BitVec.setWidth 8 s.MD <<< 4 ||| s.F) (byteOf s.M s.MB) ||| mvfR s.mvf (BitVec.setWidth 8 s.MD <<< 4 ||| s.F) (byteOf s.M s.MB)),
      SAR := 4#32 + s.R &&& 16777215#32, alu := 4#32 + s.R, aob := 4#32 + s.R,
      u := BitVec.setWidth 8 s.MD <<< 4 ||| s.F,
      w := mvfL s.mvf (BitVec.setWidth 8 s.MD <<< 4 ||| s.F) (byteOf s.M s.MB) ||| mvfR s.mvf (BitVec.setWidth 8 s.MD <<< 4 ||| s.F) (byteOf s.M s.MB),
      EDST := if byteOf s.M s.MB &&& 252#8 = 32#8 then BitVec.setWidth 2 (byteOf s.M s.MB) else 3#2,
      LSA := s.FN ++ s.J, REFETCH := true, initMem := true, ROAR := 0x78a } := by
  rw [w701]; simp

/-- Word 78a. -/
theorem w78a : ros 0x78a = {
      lu := 0, mv := 0, zp := 1920, zf := 5, zn := 4, tr := 31, ws := 4, sf := 7, iv := 0, al := 0, wm := 2, up := 2,
      md := 0, lb := 0, mb := 0, dg := 0, ul := 1, ur := 0, ce := 2, lx := 0, tc := 1, ry := 2, ad := 1, ab := 1,
      bb := 0, ss := 12 } := by
  decide +kernel

/-- `78a qe400-g7 E=2 M+0>J |U:0 V:0 W:U>WL,E>WR>W67>MB |LS:FN,J>LSA 7 |SS:X0,B0,1SYL |A:1 B:0 Z:794 ` -/
theorem x78a (e : Env) (ex : Bool) (s : S) :
    exec e (ros 0x78a) ex s = .ok { s with
      alu := s.M, aob := s.M, u := 0#8, w := 2#8, J := BitVec.setWidth 4 (s.M >>> 16), MB := 2#2, EDST := 3#2,
      LSA := s.FN ++ BitVec.setWidth 4 (s.M >>> 16),
      St := { s.St with s0 := s.M &&& 983040#32 == 0#32, s1 := s.M &&& 4026531840#32 == 0#32 },
      SYLS1 := decide (s.M >>> 28 ≤ 3#32), ROAR := 0x796 } := by
  rw [w78a]; simp

/-- Word 796. -/
theorem w796 : ros 0x796 = {
      lu := 0, mv := 0, zp := 1856, zf := 5, zn := 4, tr := 26, ws := 3, sf := 4, iv := 0, al := 30, wm := 2, up := 0,
      md := 0, lb := 1, mb := 0, dg := 0, ul := 1, ur := 0, ce := 14, lx := 0, tc := 1, ry := 0, ad := 1, ab := 1,
      bb := 0, ss := 15 } := by
  decide +kernel

/-- `796 qe400-g8 E=e 0+0>MHL AL:D |U:0 V:0 W:U>WL,E>WR>W67>MB |LS:WS,E>LSA L>LS |CNTlb=0 |SS:B0,1SYL |A:1 B:0 Z:754 ` -/
theorem x796 (e : Env) (ex : Bool) (s : S) :
    exec e (ros 0x796) ex s = .ok { s with
      L := s.SDR, M := s.M &&& 4294901760#32 ||| s.SDR >>> 16, alu := 0#32, aob := s.SDR, u := 0#8, w := 14#8,
      MD := BitVec.setWidth 4 (s.SDR >>> 28), MB := 2#2, LB := 0#2, EDST := 3#2, LSA := 30#6,
      St := { s.St with s1 := s.SDR &&& 4026531840#32 == 0#32 }, SYLS1 := s.SDR &&& 49152#32 == 0#32, ROAR := 0x756,
      LS := lsPut s.LS (30#6) s.SDR } := by
  rw [w796]; simp

end Verif.Cpu50
