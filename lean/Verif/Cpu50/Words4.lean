import Verif.Cpu50.Words3

/-!
# Model 2050: words of the SI instructions

Written by a script from the model itself; each lemma is the effect of one word of `/repo/src/model2050/ros.txt`
on the processor, with the text of the word as the listing names its fields.
-/

namespace Verif.Cpu50

attribute [local simp] exec needsChan front condA condB combine abBits nextBase leftBus leftIn rightBus rightIn uBus vBus ceB moverL moverR adCin ivStep smif dgStep cinW adder adStep lateB alStep ssEarly trStep protect ssLate wsStep wmStep upStep finish Out.bind ceBit fpStats Nat.testBit_eq_decide_div_mod_eq mov_whole

/-- Word 124. -/
theorem w124 : ros 0x124 = {
      lu := 0, mv := 0, zp := 2304, zf := 8, zn := 0, tr := 1, ws := 1, sf := 0, iv := 0, al := 0, wm := 0, up := 2,
      md := 0, lb := 0, mb := 0, dg := 0, ul := 1, ur := 1, ce := 2, lx := 1, tc := 1, ry := 3, ad := 1, ab := 1,
      bb := 0, ss := 8 } := by
  decide +kernel

/-- `124 qj011-l3 E=2 M23+L>R |U:0 V:0 W:U>WL,U>WR>0 |LS:WS1>LSA R>LS |SS:E->S03 |A:1 B:0 Z:900 M(47)>>ROAR` -/
theorem x124 (e : Env) (ex : Bool) (s : S) :
    exec e (ros 0x124) ex s = .ok { s with
      R := s.L + (s.M &&& 65535#32), alu := s.L + (s.M &&& 65535#32), aob := s.L + (s.M &&& 65535#32), u := 0#8,
      w := 0#8, EDST := 3#2, LSA := 17#6, St := { s.St with s0 := false, s1 := false, s2 := true, s3 := false },
      ROAR := 2304 ||| nib s.M 6 <<< 2 ||| 2, LS := lsPut s.LS (17#6) (s.L + (s.M &&& 65535#32)) } := by
  rw [w124]; simp

/-- Word 125. -/
theorem w125 : ros 0x125 = {
      lu := 0, mv := 0, zp := 2304, zf := 8, zn := 0, tr := 1, ws := 1, sf := 0, iv := 0, al := 0, wm := 0, up := 2,
      md := 0, lb := 0, mb := 0, dg := 0, ul := 1, ur := 1, ce := 2, lx := 0, tc := 1, ry := 3, ad := 1, ab := 1,
      bb := 0, ss := 8 } := by
  decide +kernel

/-- `125 qj011-n3 E=2 M23+0>R |U:0 V:0 W:U>WL,U>WR>0 |LS:WS1>LSA R>LS |SS:E->S03 |A:1 B:0 Z:900 M(47)>>ROAR` -/
theorem x125 (e : Env) (ex : Bool) (s : S) :
    exec e (ros 0x125) ex s = .ok { s with
      R := s.M &&& 65535#32, alu := s.M &&& 65535#32, aob := s.M &&& 65535#32, u := 0#8, w := 0#8, EDST := 3#2,
      LSA := 17#6, St := { s.St with s0 := false, s1 := false, s2 := true, s3 := false },
      ROAR := 2304 ||| nib s.M 6 <<< 2 ||| 2, LS := lsPut s.LS (17#6) (s.M &&& 65535#32) } := by
  rw [w125]; simp

/-- Word 90a. -/
theorem w90a : ros 0x90a = {
      lu := 2, mv := 0, zp := 2304, zf := 7, zn := 4, tr := 15, ws := 4, sf := 7, iv := 0, al := 0, wm := 2, up := 2,
      md := 0, lb := 0, mb := 0, dg := 0, ul := 1, ur := 1, ce := 0, lx := 0, tc := 1, ry := 1, ad := 1, ab := 0,
      bb := 0, ss := 19 } := by
  decide +kernel

/-- `90a qk222-q1 E=0 R+0>A |U:R3>U V:0 W:U>WL,U>WR>W67>MB |LS:FN,J>LSA 7 |SS:E->BS |A:0 B:0 Z:91c ` -/
theorem x90a (e : Env) (ex : Bool) (s : S) :
    exec e (ros 0x90a) ex s = .ok { s with
      SAR := s.R &&& 16777215#32, alu := s.R, aob := s.R, u := BitVec.setWidth 8 s.R, w := BitVec.setWidth 8 s.R,
      BS := 0#4, MB := BitVec.setWidth 2 s.R, EDST := 3#2, LSA := s.FN ++ s.J, initMem := true, ROAR := 0x91c } := by
  rw [w90a]; simp

/-- Word 91c. -/
theorem w91c : ros 0x91c = {
      lu := 0, mv := 1, zp := 2304, zf := 8, zn := 4, tr := 0, ws := 4, sf := 7, iv := 0, al := 0, wm := 1, up := 2,
      md := 0, lb := 0, mb := 0, dg := 0, ul := 2, ur := 2, ce := 0, lx := 0, tc := 1, ry := 0, ad := 1, ab := 0,
      bb := 0, ss := 20 } := by
  decide +kernel

/-- `91c qk222-q2 E=0 0+0>T |U:0 V:MLB>V W:V>WL,V>WR>W>MMB |LS:FN,J>LSA 7 |SS:1->BS*MB |A:0 B:0 Z:920 ` -/
theorem x91c (e : Env) (ex : Bool) (s : S) :
    exec e (ros 0x91c) ex s = .ok { s with
      M := putByte s.M s.MB (byteOf s.M s.LB), alu := 0#32, aob := 0#32, u := 0#8, w := byteOf s.M s.LB,
      BS := s.BS ||| 8#4 >>> s.MB.toNat,
      EDST := if byteOf s.M s.LB &&& 252#8 = 32#8 then BitVec.setWidth 2 (byteOf s.M s.LB) else 3#2,
      LSA := s.FN ++ s.J, ROAR := 0x920 } := by
  rw [w91c]; simp

/-- Word 912. -/
theorem w912 : ros 0x912 = {
      lu := 2, mv := 0, zp := 2304, zf := 9, zn := 4, tr := 6, ws := 4, sf := 7, iv := 0, al := 0, wm := 2, up := 2,
      md := 0, lb := 0, mb := 0, dg := 0, ul := 1, ur := 1, ce := 2, lx := 0, tc := 1, ry := 1, ad := 1, ab := 0,
      bb := 0, ss := 38 } := by
  decide +kernel

/-- `912 qk222-a1 E=2 R+0>R,A |U:R3>U V:0 W:U>WL,U>WR>W67>MB |LS:FN,J>LSA 7 |SS:E(13)>WFN |A:0 B:0 Z:924 ` -/
theorem x912 (e : Env) (ex : Bool) (s : S) :
    exec e (ros 0x912) ex s = .ok { s with
      SAR := s.R &&& 16777215#32, alu := s.R, aob := s.R, u := BitVec.setWidth 8 s.R, w := BitVec.setWidth 8 s.R,
      MB := BitVec.setWidth 2 s.R, EDST := 3#2, mvf := 2#3, LSA := s.FN ++ s.J, initMem := true, ROAR := 0x924 } := by
  rw [w912]; simp

/-- Word 91a. -/
theorem w91a : ros 0x91a = {
      lu := 2, mv := 0, zp := 2304, zf := 9, zn := 4, tr := 6, ws := 4, sf := 7, iv := 0, al := 0, wm := 2, up := 2,
      md := 0, lb := 0, mb := 0, dg := 0, ul := 1, ur := 1, ce := 1, lx := 0, tc := 1, ry := 1, ad := 1, ab := 0,
      bb := 0, ss := 38 } := by
  decide +kernel

/-- `91a qk222-e1 E=1 R+0>R,A |U:R3>U V:0 W:U>WL,U>WR>W67>MB |LS:FN,J>LSA 7 |SS:E(13)>WFN |A:0 B:0 Z:924 ` -/
theorem x91a (e : Env) (ex : Bool) (s : S) :
    exec e (ros 0x91a) ex s = .ok { s with
      SAR := s.R &&& 16777215#32, alu := s.R, aob := s.R, u := BitVec.setWidth 8 s.R, w := BitVec.setWidth 8 s.R,
      MB := BitVec.setWidth 2 s.R, EDST := 3#2, mvf := 1#3, LSA := s.FN ++ s.J, initMem := true, ROAR := 0x924 } := by
  rw [w91a]; simp

/-- Word 91e. -/
theorem w91e : ros 0x91e = {
      lu := 2, mv := 0, zp := 2304, zf := 9, zn := 4, tr := 6, ws := 4, sf := 7, iv := 0, al := 0, wm := 2, up := 2,
      md := 0, lb := 0, mb := 0, dg := 0, ul := 1, ur := 1, ce := 3, lx := 0, tc := 1, ry := 1, ad := 1, ab := 0,
      bb := 0, ss := 38 } := by
  decide +kernel

/-- `91e qk222-j1 E=3 R+0>R,A |U:R3>U V:0 W:U>WL,U>WR>W67>MB |LS:FN,J>LSA 7 |SS:E(13)>WFN |A:0 B:0 Z:924 ` -/
theorem x91e (e : Env) (ex : Bool) (s : S) :
    exec e (ros 0x91e) ex s = .ok { s with
      SAR := s.R &&& 16777215#32, alu := s.R, aob := s.R, u := BitVec.setWidth 8 s.R, w := BitVec.setWidth 8 s.R,
      MB := BitVec.setWidth 2 s.R, EDST := 3#2, mvf := 3#3, LSA := s.FN ++ s.J, initMem := true, ROAR := 0x924 } := by
  rw [w91e]; simp

/-- Word 924. -/
theorem w924 : ros 0x924 = {
      lu := 0, mv := 0, zp := 2304, zf := 10, zn := 4, tr := 7, ws := 4, sf := 7, iv := 0, al := 30, wm := 0, up := 2,
      md := 0, lb := 0, mb := 0, dg := 0, ul := 1, ur := 1, ce := 0, lx := 0, tc := 1, ry := 0, ad := 1, ab := 0,
      bb := 0, ss := 19 } := by
  decide +kernel

/-- `924 qk222-e3 E=0 0+0>L AL:D |U:0 V:0 W:U>WL,U>WR>0 |LS:FN,J>LSA 7 |SS:E->BS |A:0 B:0 Z:928 ` -/
theorem x924 (e : Env) (ex : Bool) (s : S) :
    exec e (ros 0x924) ex s = .ok { s with
      L := s.SDR, alu := 0#32, aob := s.SDR, u := 0#8, w := 0#8, BS := 0#4, EDST := 3#2, LSA := s.FN ++ s.J,
      ROAR := 0x928 } := by
  rw [w924]; simp

/-- Word 928. -/
theorem w928 : ros 0x928 = {
      lu := 6, mv := 1, zp := 2304, zf := 11, zn := 4, tr := 15, ws := 4, sf := 7, iv := 0, al := 0, wm := 1, up := 2,
      md := 0, lb := 0, mb := 0, dg := 0, ul := 3, ur := 3, ce := 0, lx := 0, tc := 1, ry := 1, ad := 1, ab := 0,
      bb := 0, ss := 20 } := by
  decide +kernel

/-- `928 qk222-e5 E=0 R+0>A |U:LMB>U V:MLB>V W:?>WL,?>WR>W>MMB |LS:FN,J>LSA 7 |SS:1->BS*MB |A:0 B:0 Z:92c ` -/
theorem x928 (e : Env) (ex : Bool) (s : S) :
    exec e (ros 0x928) ex s = .ok { s with
      M := putByte s.M s.MB (mvfL s.mvf (byteOf s.L s.MB) (byteOf s.M s.LB) ||| mvfR s.mvf (byteOf s.L s.MB) (byteOf s.M s.LB)),
      SAR := s.R &&& 16777215#32, alu := s.R, aob := s.R, u := byteOf s.L s.MB,
      w := mvfL s.mvf (byteOf s.L s.MB) (byteOf s.M s.LB) ||| mvfR s.mvf (byteOf s.L s.MB) (byteOf s.M s.LB),
      BS := s.BS ||| 8#4 >>> s.MB.toNat,
      EDST := if byteOf s.M s.LB &&& 252#8 = 32#8 then BitVec.setWidth 2 (byteOf s.M s.LB) else 3#2,
      LSA := s.FN ++ s.J, initMem := true, ROAR := 0x92c } := by
  rw [w928]; simp

/-- Word 92c. -/
theorem w92c : ros 0x92c = {
      lu := 0, mv := 0, zp := 2304, zf := 7, zn := 4, tr := 29, ws := 4, sf := 7, iv := 0, al := 0, wm := 0, up := 2,
      md := 0, lb := 0, mb := 0, dg := 0, ul := 1, ur := 1, ce := 0, lx := 0, tc := 1, ry := 2, ad := 1, ab := 17,
      bb := 1, ss := 0 } := by
  decide +kernel

/-- `92c qk222-e6 E=0 M+0>D*BS |U:0 V:0 W:U>WL,U>WR>0 |LS:FN,J>LSA 7 |A:W=0 B:1 Z:91c ` -/
theorem x92c_k (e : Env) (ex : Bool) (s : S) (hk : Permit s) :
    exec e (ros 0x92c) ex s = .ok { s with
      SDR := s.SDR &&& ~~~bsMask s.BS ||| s.M &&& bsMask s.BS, alu := s.M, aob := s.M, u := 0#8, w := 0#8,
      EDST := 3#2, LSA := s.FN ++ s.J, updD := true, ROAR := 2332 ||| 2 * (s.w == 0#8).toNat + 1 } := by
  rw [w92c]
  rcases hk with hk | ⟨h1, h2⟩
  · simp [hk]
  · simp only [keyIx, BitVec.toNat_ushiftRight] at h1 h2
    by_cases hk : s.KEY = 0#4 <;> simp [keyIx, hk, h1, h2]

theorem x92c_p (e : Env) (ex : Bool) (s : S) (hk : Denied s) :
    exec e (ros 0x92c) ex s = .ok { s with
      alu := s.M, aob := s.M, u := 0#8, w := 0#8,
      EDST := 3#2, LSA := s.FN ++ s.J, ROAR := 0x142 } := by
  rw [w92c]
  obtain ⟨h0, h1, h2⟩ := hk
  simp only [keyIx, BitVec.toNat_ushiftRight] at h1 h2
  simp [keyIx, h0, h1, h2]

/-- Word 91d. -/
theorem w91d : ros 0x91d = {
      lu := 0, mv := 0, zp := 384, zf := 5, zn := 4, tr := 0, ws := 4, sf := 7, iv := 0, al := 0, wm := 0, up := 2,
      md := 0, lb := 0, mb := 0, dg := 0, ul := 1, ur := 1, ce := 1, lx := 0, tc := 1, ry := 0, ad := 1, ab := 1,
      bb := 1, ss := 40 } := by
  decide +kernel

/-- `91d qk222-c7 E=1 0+0>T |U:0 V:0 W:U>WL,U>WR>0 |LS:FN,J>LSA 7 |SS:E(23)->CR |A:1 B:1 Z:194 ` -/
theorem x91d (e : Env) (ex : Bool) (s : S) :
    exec e (ros 0x91d) ex s = .ok { s with
      alu := 0#32, aob := 0#32, u := 0#8, w := 0#8, EDST := 3#2, CC := 1#2, LSA := s.FN ++ s.J, ROAR := 0x197 } := by
  rw [w91d]; simp

/-- Word 91f. -/
theorem w91f : ros 0x91f = {
      lu := 0, mv := 0, zp := 384, zf := 5, zn := 4, tr := 0, ws := 4, sf := 7, iv := 0, al := 0, wm := 0, up := 2,
      md := 0, lb := 0, mb := 0, dg := 0, ul := 1, ur := 1, ce := 0, lx := 0, tc := 1, ry := 0, ad := 1, ab := 1,
      bb := 1, ss := 40 } := by
  decide +kernel

/-- `91f qk222-g7 E=0 0+0>T |U:0 V:0 W:U>WL,U>WR>0 |LS:FN,J>LSA 7 |SS:E(23)->CR |A:1 B:1 Z:194 ` -/
theorem x91f (e : Env) (ex : Bool) (s : S) :
    exec e (ros 0x91f) ex s = .ok { s with
      alu := 0#32, aob := 0#32, u := 0#8, w := 0#8, EDST := 3#2, CC := 0#2, LSA := s.FN ++ s.J, ROAR := 0x197 } := by
  rw [w91f]; simp

/-- Word 916. -/
theorem w916 : ros 0x916 = {
      lu := 2, mv := 0, zp := 2304, zf := 12, zn := 4, tr := 15, ws := 4, sf := 7, iv := 0, al := 0, wm := 2, up := 2,
      md := 0, lb := 0, mb := 0, dg := 0, ul := 1, ur := 1, ce := 0, lx := 0, tc := 1, ry := 1, ad := 1, ab := 0,
      bb := 0, ss := 19 } := by
  decide +kernel

/-- `916 qk555-q1 E=0 R+0>A |U:R3>U V:0 W:U>WL,U>WR>W67>MB |LS:FN,J>LSA 7 |SS:E->BS |A:0 B:0 Z:930 ` -/
theorem x916 (e : Env) (ex : Bool) (s : S) :
    exec e (ros 0x916) ex s = .ok { s with
      SAR := s.R &&& 16777215#32, alu := s.R, aob := s.R, u := BitVec.setWidth 8 s.R, w := BitVec.setWidth 8 s.R,
      BS := 0#4, MB := BitVec.setWidth 2 s.R, EDST := 3#2, LSA := s.FN ++ s.J, initMem := true, ROAR := 0x930 } := by
  rw [w916]; simp

/-- Word 930. -/
theorem w930 : ros 0x930 = {
      lu := 0, mv := 1, zp := 2304, zf := 13, zn := 4, tr := 3, ws := 4, sf := 7, iv := 0, al := 0, wm := 15, up := 2,
      md := 0, lb := 0, mb := 0, dg := 0, ul := 2, ur := 2, ce := 3, lx := 0, tc := 0, ry := 0, ad := 1, ab := 0,
      bb := 0, ss := 38 } := by
  decide +kernel

/-- `930 qk555-q2 E=3 0-0>M |U:0 V:MLB>V W:V>WL,V>WR>W>MD,F |LS:FN,J>LSA 7 |SS:E(13)>WFN |A:0 B:0 Z:934 ` -/
theorem x930 (e : Env) (ex : Bool) (s : S) :
    exec e (ros 0x930) ex s = .ok { s with
      M := 4294967295#32, alu := 4294967295#32, aob := 4294967295#32, u := 0#8, w := byteOf s.M s.LB,
      F := byteOf s.M s.LB &&& 15#8, MD := BitVec.setWidth 4 (byteOf s.M s.LB >>> 4),
      EDST := if byteOf s.M s.LB &&& 252#8 = 32#8 then BitVec.setWidth 2 (byteOf s.M s.LB) else 3#2, mvf := 3#3,
      LSA := s.FN ++ s.J, ROAR := 0x934 } := by
  rw [w930]; simp

/-- Word 934. -/
theorem w934 : ros 0x934 = {
      lu := 1, mv := 2, zp := 2304, zf := 14, zn := 4, tr := 7, ws := 4, sf := 7, iv := 0, al := 30, wm := 1, up := 2,
      md := 0, lb := 0, mb := 0, dg := 0, ul := 3, ur := 3, ce := 0, lx := 0, tc := 1, ry := 0, ad := 1, ab := 0,
      bb := 0, ss := 20 } := by
  decide +kernel

/-- `934 qk555-q3 E=0 0+0>L AL:D |U:MD,F>U V:MMB>V W:?>WL,?>WR>W>MMB |LS:FN,J>LSA 7 |SS:1->BS*MB |A:0 B:0 Z:938 ` -/
theorem x934 (e : Env) (ex : Bool) (s : S) :
    exec e (ros 0x934) ex s = .ok { s with
      L := s.SDR,
      M := putByte s.M s.MB (mvfL s.mvf (BitVec.setWidth 8 s.MD <<< 4 ||| s.F) (byteOf s.M s.MB) ||| mvfR s.mvf (BitVec.setWidth 8 s.MD <<< 4 ||| s.F) (byteOf s.M s.MB)),
      alu := 0#32, aob := s.SDR, u := BitVec.setWidth 8 s.MD <<< 4 ||| s.F,
      w := mvfL s.mvf (BitVec.setWidth 8 s.MD <<< 4 ||| s.F) (byteOf s.M s.MB) ||| mvfR s.mvf (BitVec.setWidth 8 s.MD <<< 4 ||| s.F) (byteOf s.M s.MB),
      BS := s.BS ||| 8#4 >>> s.MB.toNat,
      EDST := if byteOf s.M s.MB &&& 252#8 = 32#8 then BitVec.setWidth 2 (byteOf s.M s.MB) else 3#2,
      LSA := s.FN ++ s.J, ROAR := 0x938 } := by
  rw [w934]; simp

/-- Word 938. -/
theorem w938 : ros 0x938 = {
      lu := 0, mv := 0, zp := 384, zf := 5, zn := 4, tr := 0, ws := 4, sf := 7, iv := 0, al := 0, wm := 0, up := 2,
      md := 0, lb := 0, mb := 0, dg := 2, ul := 1, ur := 1, ce := 0, lx := 1, tc := 1, ry := 2, ad := 1, ab := 1,
      bb := 1, ss := 42 } := by
  decide +kernel

/-- `938 qk555-q4 E=0 M+L>T |U:0 V:0 W:U>WL,U>WR>0 |LS:FN,J>LSA 7 |DG:HOT1>ADDR |SS:SETCRLOG |A:1 B:1 Z:194 ` -/
theorem x938 (e : Env) (ex : Bool) (s : S) :
    exec e (ros 0x938) ex s = .ok { s with
      alu := (s.L &&& bsMask s.BS) + s.M + 1#32, aob := (s.L &&& bsMask s.BS) + s.M + 1#32, u := 0#8, w := 0#8,
      EDST := 3#2,
      CC := if (s.L &&& bsMask s.BS) + s.M + 1#32 &&& bsMask s.BS = 0#32 then 0#2 else if BitVec.msb (carriesOf (s.L &&& bsMask s.BS) s.M ((s.L &&& bsMask s.BS) + s.M + 1#32)) = true then 2#2 else 1#2,
      LSA := s.FN ++ s.J, ROAR := 0x197 } := by
  rw [w938]; simp

/-- Word 906. -/
theorem w906 : ros 0x906 = {
      lu := 0, mv := 1, zp := 2304, zf := 15, zn := 4, tr := 6, ws := 4, sf := 7, iv := 0, al := 0, wm := 15, up := 2,
      md := 0, lb := 0, mb := 0, dg := 0, ul := 2, ur := 2, ce := 2, lx := 0, tc := 1, ry := 1, ad := 1, ab := 0,
      bb := 0, ss := 38 } := by
  decide +kernel

/-- `906 qk555-e2 E=2 R+0>R,A |U:0 V:MLB>V W:V>WL,V>WR>W>MD,F |LS:FN,J>LSA 7 |SS:E(13)>WFN |A:0 B:0 Z:93c ` -/
theorem x906 (e : Env) (ex : Bool) (s : S) :
    exec e (ros 0x906) ex s = .ok { s with
      SAR := s.R &&& 16777215#32, alu := s.R, aob := s.R, u := 0#8, w := byteOf s.M s.LB,
      F := byteOf s.M s.LB &&& 15#8, MD := BitVec.setWidth 4 (byteOf s.M s.LB >>> 4),
      EDST := if byteOf s.M s.LB &&& 252#8 = 32#8 then BitVec.setWidth 2 (byteOf s.M s.LB) else 3#2, mvf := 2#3,
      LSA := s.FN ++ s.J, initMem := true, ROAR := 0x93c } := by
  rw [w906]; simp

/-- Word 93c. -/
theorem w93c : ros 0x93c = {
      lu := 2, mv := 0, zp := 2368, zf := 0, zn := 4, tr := 3, ws := 3, sf := 6, iv := 0, al := 30, wm := 2, up := 2,
      md := 0, lb := 0, mb := 0, dg := 0, ul := 1, ur := 1, ce := 14, lx := 0, tc := 1, ry := 0, ad := 1, ab := 0,
      bb := 1, ss := 24 } := by
  decide +kernel

/-- `93c qk555-e3 E=e 0+0>M AL:D |U:R3>U V:0 W:U>WL,U>WR>W67>MB |LS:WS,E>LSA LS>L>LS |SS:E>S47 |A:0 B:1 Z:940 ` -/
theorem x93c (e : Env) (ex : Bool) (s : S) :
    exec e (ros 0x93c) ex s = .ok { s with
      L := s.LS 30#6, M := s.SDR, alu := 0#32, aob := s.SDR, u := BitVec.setWidth 8 s.R, w := BitVec.setWidth 8 s.R,
      MB := BitVec.setWidth 2 s.R, EDST := 3#2, LSA := 30#6,
      St := { s.St with s4 := true, s5 := true, s6 := true, s7 := false }, ROAR := 0x941 } := by
  rw [w93c]; simp

/-- Word 941. -/
theorem w941 : ros 0x941 = {
      lu := 1, mv := 2, zp := 2368, zf := 2, zn := 4, tr := 0, ws := 4, sf := 7, iv := 0, al := 0, wm := 1, up := 2,
      md := 0, lb := 0, mb := 0, dg := 0, ul := 3, ur := 3, ce := 3, lx := 0, tc := 1, ry := 0, ad := 1, ab := 0,
      bb := 0, ss := 38 } := by
  decide +kernel

/-- `941 qk555-e4 E=3 0+0>T |U:MD,F>U V:MMB>V W:?>WL,?>WR>W>MMB |LS:FN,J>LSA 7 |SS:E(13)>WFN |A:0 B:0 Z:948 ` -/
theorem x941 (e : Env) (ex : Bool) (s : S) :
    exec e (ros 0x941) ex s = .ok { s with
      M := putByte s.M s.MB (mvfL s.mvf (BitVec.setWidth 8 s.MD <<< 4 ||| s.F) (byteOf s.M s.MB) ||| mvfR s.mvf (BitVec.setWidth 8 s.MD <<< 4 ||| s.F) (byteOf s.M s.MB)),
      alu := 0#32, aob := 0#32, u := BitVec.setWidth 8 s.MD <<< 4 ||| s.F,
      w := mvfL s.mvf (BitVec.setWidth 8 s.MD <<< 4 ||| s.F) (byteOf s.M s.MB) ||| mvfR s.mvf (BitVec.setWidth 8 s.MD <<< 4 ||| s.F) (byteOf s.M s.MB),
      EDST := if byteOf s.M s.MB &&& 252#8 = 32#8 then BitVec.setWidth 2 (byteOf s.M s.MB) else 3#2, mvf := 3#3,
      LSA := s.FN ++ s.J, ROAR := 0x948 } := by
  rw [w941]; simp

/-- Word 948. -/
theorem w948 : ros 0x948 = {
      lu := 1, mv := 2, zp := 2304, zf := 8, zn := 4, tr := 0, ws := 4, sf := 7, iv := 0, al := 0, wm := 0, up := 2,
      md := 0, lb := 0, mb := 0, dg := 0, ul := 3, ur := 3, ce := 0, lx := 0, tc := 1, ry := 0, ad := 1, ab := 17,
      bb := 1, ss := 0 } := by
  decide +kernel

/-- `948 qk555-e5 E=0 0+0>T |U:MD,F>U V:MMB>V W:?>WL,?>WR>0 |LS:FN,J>LSA 7 |A:W=0 B:1 Z:920 ` -/
theorem x948 (e : Env) (ex : Bool) (s : S) :
    exec e (ros 0x948) ex s = .ok { s with
      alu := 0#32, aob := 0#32, u := BitVec.setWidth 8 s.MD <<< 4 ||| s.F,
      w := mvfL s.mvf (BitVec.setWidth 8 s.MD <<< 4 ||| s.F) (byteOf s.M s.MB) ||| mvfR s.mvf (BitVec.setWidth 8 s.MD <<< 4 ||| s.F) (byteOf s.M s.MB),
      EDST := if byteOf s.M s.MB &&& 252#8 = 32#8 then BitVec.setWidth 2 (byteOf s.M s.MB) else 3#2,
      LSA := s.FN ++ s.J, ROAR := 2336 ||| 2 * (s.w == 0#8).toNat + 1 } := by
  rw [w948]; simp

/-- Word 921. -/
theorem w921 : ros 0x921 = {
      lu := 0, mv := 0, zp := 2304, zf := 9, zn := 4, tr := 0, ws := 4, sf := 7, iv := 0, al := 0, wm := 0, up := 2,
      md := 0, lb := 0, mb := 0, dg := 0, ul := 1, ur := 1, ce := 0, lx := 0, tc := 1, ry := 0, ad := 1, ab := 17,
      bb := 1, ss := 0 } := by
  decide +kernel

/-- `921 qk555-e6 E=0 0+0>T |U:0 V:0 W:U>WL,U>WR>0 |LS:FN,J>LSA 7 |A:W=0 B:1 Z:924 ` -/
theorem x921 (e : Env) (ex : Bool) (s : S) :
    exec e (ros 0x921) ex s = .ok { s with
      alu := 0#32, aob := 0#32, u := 0#8, w := 0#8, EDST := 3#2, LSA := s.FN ++ s.J,
      ROAR := 2340 ||| 2 * (s.w == 0#8).toNat + 1 } := by
  rw [w921]; simp

/-- Word 923. -/
theorem w923 : ros 0x923 = {
      lu := 0, mv := 0, zp := 320, zf := 2, zn := 4, tr := 0, ws := 4, sf := 7, iv := 7, al := 0, wm := 0, up := 2,
      md := 0, lb := 0, mb := 0, dg := 0, ul := 1, ur := 1, ce := 0, lx := 0, tc := 1, ry := 0, ad := 1, ab := 56,
      bb := 0, ss := 40 } := by
  decide +kernel

/-- `923 qk555-a7 E=0 0+0>T |U:0 V:0 W:U>WL,U>WR>0 |LS:FN,J>LSA 7 |IV:IA+0/2>A |SS:E(23)->CR |A:I-FETCH B:0 Z:148 ` -/
theorem x923 (e : Env) (ex : Bool) (s : S) :
    exec e (ros 0x923) ex s = .ok { s with
      SAR := ifAddr s.REFETCH s.IA, alu := 0#32, aob := 0#32, u := 0#8, w := 0#8, EDST := 3#2, CC := 0#2,
      LSA := s.FN ++ s.J, IVA := s.IVA || decide (e.memMax < ifAddr s.REFETCH s.IA),
      initMem := s.initMem || !decide (e.memMax < ifAddr s.REFETCH s.IA),
      ROAR := 328 ||| 2 * (ex || s.IA &&& 2#32 == 0#32).toNat + (ex || s.IA &&& 2#32 != 0#32 && s.REFETCH).toNat } := by
  rw [w923]; simp

/-- Word 925. -/
theorem w925 : ros 0x925 = {
      lu := 0, mv := 0, zp := 320, zf := 2, zn := 4, tr := 0, ws := 4, sf := 7, iv := 7, al := 0, wm := 0, up := 2,
      md := 0, lb := 0, mb := 0, dg := 0, ul := 1, ur := 1, ce := 1, lx := 0, tc := 1, ry := 0, ad := 1, ab := 56,
      bb := 0, ss := 40 } := by
  decide +kernel

/-- `925 qk555-e7 E=1 0+0>T |U:0 V:0 W:U>WL,U>WR>0 |LS:FN,J>LSA 7 |IV:IA+0/2>A |SS:E(23)->CR |A:I-FETCH B:0 Z:148 ` -/
theorem x925 (e : Env) (ex : Bool) (s : S) :
    exec e (ros 0x925) ex s = .ok { s with
      SAR := ifAddr s.REFETCH s.IA, alu := 0#32, aob := 0#32, u := 0#8, w := 0#8, EDST := 3#2, CC := 1#2,
      LSA := s.FN ++ s.J, IVA := s.IVA || decide (e.memMax < ifAddr s.REFETCH s.IA),
      initMem := s.initMem || !decide (e.memMax < ifAddr s.REFETCH s.IA),
      ROAR := 328 ||| 2 * (ex || s.IA &&& 2#32 == 0#32).toNat + (ex || s.IA &&& 2#32 != 0#32 && s.REFETCH).toNat } := by
  rw [w925]; simp

/-- Word 927. -/
theorem w927 : ros 0x927 = {
      lu := 0, mv := 0, zp := 320, zf := 2, zn := 4, tr := 0, ws := 4, sf := 7, iv := 7, al := 0, wm := 0, up := 2,
      md := 0, lb := 0, mb := 0, dg := 0, ul := 1, ur := 1, ce := 3, lx := 0, tc := 1, ry := 0, ad := 1, ab := 56,
      bb := 0, ss := 40 } := by
  decide +kernel

/-- `927 qk555-j7 E=3 0+0>T |U:0 V:0 W:U>WL,U>WR>0 |LS:FN,J>LSA 7 |IV:IA+0/2>A |SS:E(23)->CR |A:I-FETCH B:0 Z:148 ` -/
theorem x927 (e : Env) (ex : Bool) (s : S) :
    exec e (ros 0x927) ex s = .ok { s with
      SAR := ifAddr s.REFETCH s.IA, alu := 0#32, aob := 0#32, u := 0#8, w := 0#8, EDST := 3#2, CC := 3#2,
      LSA := s.FN ++ s.J, IVA := s.IVA || decide (e.memMax < ifAddr s.REFETCH s.IA),
      initMem := s.initMem || !decide (e.memMax < ifAddr s.REFETCH s.IA),
      ROAR := 328 ||| 2 * (ex || s.IA &&& 2#32 == 0#32).toNat + (ex || s.IA &&& 2#32 != 0#32 && s.REFETCH).toNat } := by
  rw [w927]; simp

end Verif.Cpu50
