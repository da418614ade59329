import Verif.Cpu50.Words9

/-!
# Model 2050: words of EXECUTE with a subject of the format RR

Written by a script from the model itself; each lemma is the effect of one word of `/repo/src/model2050/ros.txt`
on the processor, with the text of the word as the listing names its fields.
-/

namespace Verif.Cpu50

attribute [local simp] exec needsChan front condA condB combine abBits nextBase leftBus leftIn rightBus rightIn uBus vBus ceB moverL moverR adCin ivStep smif dgStep cinW adder adStep lateB alStep ssEarly trStep protect ssLate wsStep wmStep upStep finish Out.bind ceBit fpStats Nat.testBit_eq_decide_div_mod_eq mov_whole

/-- Word 703. -/
theorem w703 : ros 0x703 = {
      lu := 1, mv := 2, zp := 1920, zf := 4, zn := 4, tr := 0, ws := 4, sf := 7, iv := 0, al := 0, wm := 1, up := 3,
      md := 0, lb := 1, mb := 0, dg := 0, ul := 3, ur := 3, ce := 0, lx := 0, tc := 1, ry := 0, ad := 1, ab := 1,
      bb := 1, ss := 45 } := by
  decide +kernel

/-- `703 qe400-l6 E=0 0+0>T |U:MD,F>U V:MMB>V W:?>WL,?>WR>W>MMB |LS:FN,J>LSA 7 |CNTlb+ |SS:1->REFETCH |A:1 B:1 Z:790 ` -/
theorem x703 (e : Env) (ex : Bool) (s : S) :
    exec e (ros 0x703) ex s = .ok { s with
      M := putByte s.M s.MB (mvfL s.mvf (BitVec.setWidth 8 s.MD <<< 4 ||| s.F) (byteOf s.M s.MB) ||| mvfR s.mvf (BitVec.setWidth 8 s.MD <<< 4 ||| s.F) (byteOf s.M s.MB)),
      alu := 0#32, aob := 0#32, u := BitVec.setWidth 8 s.MD <<< 4 ||| s.F,
      w := mvfL s.mvf (BitVec.setWidth 8 s.MD <<< 4 ||| s.F) (byteOf s.M s.MB) ||| mvfR s.mvf (BitVec.setWidth 8 s.MD <<< 4 ||| s.F) (byteOf s.M s.MB),
      LB := s.LB + 1#2, EDST := if byteOf s.M s.MB &&& 252#8 = 32#8 then BitVec.setWidth 2 (byteOf s.M s.MB) else 3#2,
      LSA := s.FN ++ s.J, REFETCH := true, ROAR := 0x793 } := by
  rw [w703]; simp

/-- Word 793. -/
theorem w793 : ros 0x793 = {
      lu := 0, mv := 2, zp := 256, zf := 6, zn := 0, tr := 31, ws := 4, sf := 7, iv := 0, al := 0, wm := 13, up := 1,
      md := 0, lb := 0, mb := 1, dg := 0, ul := 2, ur := 1, ce := 0, lx := 0, tc := 1, ry := 2, ad := 1, ab := 0,
      bb := 0, ss := 12 } := by
  decide +kernel

/-- `793 qe400-l7 E=0 M+0>J |U:0 V:MMB>V W:V>WL,U>WR>WL>MD |LS:FN,J>LSA 7 |CNTmb=3 |SS:X0,B0,1SYL |A:0 B:0 Z:100 M(03)>>ROAR` -/
theorem x793 (e : Env) (ex : Bool) (s : S) :
    exec e (ros 0x793) ex s = .ok { s with
      alu := s.M, aob := s.M, u := 0#8, w := byteOf s.M s.MB &&& 240#8,
      MD := BitVec.setWidth 4 ((byteOf s.M s.MB &&& 240#8) >>> 4), J := BitVec.setWidth 4 (s.M >>> 16), MB := 3#2,
      EDST := if byteOf s.M s.MB &&& 252#8 = 32#8 then BitVec.setWidth 2 (byteOf s.M s.MB) else 3#2,
      LSA := s.FN ++ BitVec.setWidth 4 (s.M >>> 16),
      St := { s.St with s0 := s.M &&& 983040#32 == 0#32, s1 := s.M &&& 4026531840#32 == 0#32 },
      SYLS1 := decide (s.M >>> 28 ≤ 3#32), ROAR := 256 ||| nib s.M 7 <<< 2 } := by
  rw [w793]; simp

end Verif.Cpu50
