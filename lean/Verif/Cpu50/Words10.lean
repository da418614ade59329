import Verif.Cpu50.Words9

/-!
# Model 2050: words of LOAD MULTIPLE and STORE MULTIPLE

Written by a script from the model itself; each lemma is the effect of one word of `/repo/src/model2050/ros.txt`
on the processor, with the text of the word as the listing names its fields.
-/

namespace Verif.Cpu50

attribute [local simp] exec needsChan front condA condB combine abBits nextBase leftBus leftIn rightBus rightIn uBus vBus ceB moverL moverR adCin ivStep smif dgStep cinW adder adStep lateB alStep ssEarly trStep protect ssLate wsStep wmStep upStep finish Out.bind ceBit fpStats Nat.testBit_eq_decide_div_mod_eq mov_whole

/-- Word 922. -/
theorem w922 : ros 0x922 = {
      lu := 0, mv := 0, zp := 2368, zf := 3, zn := 4, tr := 3, ws := 4, sf := 7, iv := 0, al := 16, wm := 0, up := 0,
      md := 0, lb := 0, mb := 1, dg := 0, ul := 1, ur := 1, ce := 1, lx := 0, tc := 1, ry := 2, ad := 1, ab := 0,
      bb := 0, ss := 16 } := by
  decide +kernel

/-- `922 qk666-c1 E=1 M+0>M AL:SL4>F |U:0 V:0 W:U>WL,U>WR>0 |LS:FN,J>LSA 7 |CNTmb=0 |SS:S03.!E |A:0 B:0 Z:94c ` -/
theorem x922 (e : Env) (ex : Bool) (s : S) :
    exec e (ros 0x922) ex s = .ok { s with
      M := s.M <<< 4, alu := s.M, aob := s.M <<< 4, u := 0#8, w := 0#8, F := hiDig s.M, MB := 0#2, EDST := 3#2,
      LSA := s.FN ++ s.J, St := { s.St with s3 := false }, ROAR := 0x94c } := by
  rw [w922]; simp

/-- Word 902. -/
theorem w902 : ros 0x902 = {
      lu := 0, mv := 0, zp := 2368, zf := 3, zn := 4, tr := 3, ws := 4, sf := 7, iv := 0, al := 16, wm := 0, up := 0,
      md := 0, lb := 0, mb := 1, dg := 0, ul := 1, ur := 1, ce := 1, lx := 0, tc := 1, ry := 2, ad := 1, ab := 0,
      bb := 0, ss := 10 } := by
  decide +kernel

/-- `902 qk666-n1 E=1 M+0>M AL:SL4>F |U:0 V:0 W:U>WL,U>WR>0 |LS:FN,J>LSA 7 |CNTmb=0 |SS:S03|E |A:0 B:0 Z:94c ` -/
theorem x902 (e : Env) (ex : Bool) (s : S) :
    exec e (ros 0x902) ex s = .ok { s with
      M := s.M <<< 4, alu := s.M, aob := s.M <<< 4, u := 0#8, w := 0#8, F := hiDig s.M, MB := 0#2, EDST := 3#2,
      LSA := s.FN ++ s.J, St := { s.St with s3 := true }, ROAR := 0x94c } := by
  rw [w902]; simp

/-- Word 94c. -/
theorem w94c : ros 0x94c = {
      lu := 0, mv := 0, zp := 2368, zf := 5, zn := 4, tr := 10, ws := 4, sf := 7, iv := 0, al := 0, wm := 0, up := 3,
      md := 0, lb := 0, mb := 1, dg := 0, ul := 1, ur := 1, ce := 3, lx := 0, tc := 1, ry := 1, ad := 1, ab := 0,
      bb := 0, ss := 38 } := by
  decide +kernel

/-- `94c qk666-c3 E=3 R+0>R,AW |U:0 V:0 W:U>WL,U>WR>0 |LS:FN,J>LSA 7 |CNTmb+ |SS:E(13)>WFN |A:0 B:0 Z:954 ` -/
theorem x94c (e : Env) (ex : Bool) (s : S) :
    exec e (ros 0x94c) ex s = .ok { s with
      SAR := s.R &&& 16777215#32, alu := s.R, aob := s.R, u := 0#8, w := 0#8, MB := s.MB + 1#2, EDST := 3#2,
      mvf := 3#3, LSA := s.FN ++ s.J, initMem := s.initMem || s.R &&& 16777215#32 &&& 3#32 == 0#32,
      ROAR := if s.R &&& 16777215#32 &&& 3#32 = 0#32 then 2388 else 450 } := by
  rw [w94c]; simp

/-- Word 954. -/
theorem w954 : ros 0x954 = {
      lu := 1, mv := 2, zp := 2304, zf := 10, zn := 4, tr := 0, ws := 6, sf := 6, iv := 0, al := 0, wm := 0, up := 2,
      md := 0, lb := 0, mb := 0, dg := 0, ul := 3, ur := 1, ce := 0, lx := 0, tc := 1, ry := 0, ad := 1, ab := 5,
      bb := 1, ss := 0 } := by
  decide +kernel

/-- `954 qk666-e7 E=0 0+0>T |U:MD,F>U V:MMB>V W:?>WL,U>WR>0 |LS:FN,MD>LSA LS>L>LS |A:S3 B:1 Z:928 ` -/
theorem x954 (e : Env) (ex : Bool) (s : S) :
    exec e (ros 0x954) ex s = .ok { s with
      L := s.LS (s.FN ++ s.MD), alu := 0#32, aob := 0#32, u := BitVec.setWidth 8 s.MD <<< 4 ||| s.F,
      w := mvfL s.mvf (BitVec.setWidth 8 s.MD <<< 4 ||| s.F) (byteOf s.M s.MB) ||| (BitVec.setWidth 8 s.MD <<< 4 ||| s.F) &&& 15#8,
      EDST := if byteOf s.M s.MB &&& 252#8 = 32#8 then BitVec.setWidth 2 (byteOf s.M s.MB) else 3#2,
      LSA := s.FN ++ s.MD, ROAR := 2344 ||| 2 * s.St.s3.toNat + 1 } := by
  rw [w954]; simp

/-- Word 929. -/
theorem w929 : ros 0x929 = {
      lu := 0, mv := 0, zp := 2304, zf := 11, zn := 4, tr := 7, ws := 6, sf := 4, iv := 0, al := 30, wm := 0, up := 2,
      md := 0, lb := 0, mb := 0, dg := 0, ul := 1, ur := 1, ce := 0, lx := 0, tc := 1, ry := 0, ad := 1, ab := 18,
      bb := 1, ss := 0 } := by
  decide +kernel

/-- `929 qk666-c8 E=0 0+0>L AL:D |U:0 V:0 W:U>WL,U>WR>0 |LS:FN,MD>LSA L>LS |A:WL=0 B:1 Z:92c ` -/
theorem x929 (e : Env) (ex : Bool) (s : S) :
    exec e (ros 0x929) ex s = .ok { s with
      L := s.SDR, alu := 0#32, aob := s.SDR, u := 0#8, w := 0#8, EDST := 3#2, LSA := s.FN ++ s.MD,
      ROAR := 2348 ||| 2 * (s.w &&& 240#8 == 0#8).toNat + 1, LS := lsPut s.LS (s.FN ++ s.MD) s.SDR } := by
  rw [w929]; simp

/-- Word 92b. -/
theorem w92b : ros 0x92b = {
      lu := 0, mv := 0, zp := 2304, zf := 11, zn := 4, tr := 4, ws := 4, sf := 7, iv := 0, al := 0, wm := 0, up := 2,
      md := 0, lb := 0, mb := 0, dg := 0, ul := 1, ur := 1, ce := 0, lx := 1, tc := 1, ry := 0, ad := 1, ab := 18,
      bb := 1, ss := 0 } := by
  decide +kernel

/-- `92b qk666-j8 E=0 0+L>D |U:0 V:0 W:U>WL,U>WR>0 |LS:FN,J>LSA 7 |A:WL=0 B:1 Z:92c ` -/
theorem x92b_k (e : Env) (ex : Bool) (s : S) (hk : Permit s) :
    exec e (ros 0x92b) ex s = .ok { s with
      SDR := s.L, alu := s.L, aob := s.L, u := 0#8, w := 0#8, EDST := 3#2, LSA := s.FN ++ s.J,
      updD := true, ROAR := 2348 ||| 2 * (s.w &&& 240#8 == 0#8).toNat + 1 } := by
  rw [w92b]
  rcases hk with hk | ⟨h1, h2⟩
  · simp [hk]
  · simp only [keyIx, BitVec.toNat_ushiftRight] at h1 h2
    by_cases hk : s.KEY = 0#4 <;> simp [keyIx, hk, h1, h2]

/-- Word 92d. -/
theorem w92d : ros 0x92d = {
      lu := 0, mv := 0, zp := 2368, zf := 5, zn := 4, tr := 6, ws := 4, sf := 7, iv := 0, al := 0, wm := 0, up := 3,
      md := 1, lb := 0, mb := 0, dg := 0, ul := 1, ur := 1, ce := 0, lx := 6, tc := 1, ry := 1, ad := 1, ab := 0,
      bb := 0, ss := 0 } := by
  decide +kernel

/-- `92d qk666-e6 E=0 R+4>R,A |U:0 V:0 W:U>WL,U>WR>0 |LS:FN,J>LSA 7 |CNTmd+ |A:0 B:0 Z:954 ` -/
theorem x92d (e : Env) (ex : Bool) (s : S) :
    exec e (ros 0x92d) ex s = .ok { s with
      R := 4#32 + s.R, SAR := 4#32 + s.R &&& 16777215#32, alu := 4#32 + s.R, aob := 4#32 + s.R, u := 0#8, w := 0#8,
      MD := s.MD + 1#4, EDST := 3#2, LSA := s.FN ++ s.J, initMem := true, ROAR := 0x954 } := by
  rw [w92d]; simp

end Verif.Cpu50
