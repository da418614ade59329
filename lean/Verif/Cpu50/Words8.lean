import Verif.Cpu50.Words7

/-!
# Model 2050: words of the storage key instructions

Written by a script from the model itself; each lemma is the effect of one word of `/repo/src/model2050/ros.txt`
on the processor, with the text of the word as the listing names its fields.
-/

namespace Verif.Cpu50

attribute [local simp] exec needsChan front condA condB combine abBits nextBase leftBus leftIn rightBus rightIn uBus vBus ceB moverL moverR adCin ivStep smif dgStep cinW adder adStep lateB alStep ssEarly trStep protect ssLate wsStep wmStep upStep finish Out.bind ceBit fpStats Nat.testBit_eq_decide_div_mod_eq mov_whole

/-- Word 181. -/
theorem w181 : ros 0x181 = {
      lu := 7, mv := 0, zp := 448, zf := 2, zn := 4, tr := 0, ws := 4, sf := 7, iv := 0, al := 0, wm := 14, up := 2,
      md := 0, lb := 0, mb := 0, dg := 0, ul := 1, ur := 3, ce := 0, lx := 0, tc := 1, ry := 0, ad := 1, ab := 0,
      bb := 13, ss := 0 } := by
  decide +kernel

/-- `181 qa800-e3 E=0 0+0>T |U:LLB>U V:0 W:U>WL,?>WR>WR>F |LS:FN,J>LSA 7 |A:0 B:WR=0 Z:1c8 ` -/
theorem x181 (e : Env) (ex : Bool) (s : S) :
    exec e (ros 0x181) ex s = .ok { s with
      alu := 0#32, aob := 0#32, u := byteOf s.L s.LB,
      w := byteOf s.L s.LB &&& 240#8 ||| mvfR s.mvf (byteOf s.L s.LB) 0#8,
      F := (byteOf s.L s.LB &&& 240#8 ||| mvfR s.mvf (byteOf s.L s.LB) 0#8) &&& 15#8, EDST := 3#2, LSA := s.FN ++ s.J,
      ROAR := 456 ||| (s.w &&& 15#8 == 0#8).toNat } := by
  rw [w181]; simp

/-- Word 92f. -/
theorem w92f : ros 0x92f = {
      lu := 0, mv := 0, zp := 384, zf := 5, zn := 4, tr := 0, ws := 4, sf := 7, iv := 0, al := 0, wm := 0, up := 2,
      md := 0, lb := 0, mb := 0, dg := 0, ul := 1, ur := 1, ce := 0, lx := 0, tc := 1, ry := 0, ad := 1, ab := 1,
      bb := 1, ss := 0 } := by
  decide +kernel

/-- `92f qk555-a5 E=0 0+0>T |U:0 V:0 W:U>WL,U>WR>0 |LS:FN,J>LSA 7 |A:1 B:1 Z:194 ` -/
theorem x92f (e : Env) (ex : Bool) (s : S) :
    exec e (ros 0x92f) ex s = .ok { s with
      alu := 0#32, aob := 0#32, u := 0#8, w := 0#8, EDST := 3#2, LSA := s.FN ++ s.J, ROAR := 0x197 } := by
  rw [w92f]; simp

/-- Word 1ca. -/
theorem w1ca : ros 0x1ca = {
      lu := 0, mv := 0, zp := 256, zf := 9, zn := 4, tr := 3, ws := 4, sf := 7, iv := 0, al := 0, wm := 0, up := 2,
      md := 0, lb := 0, mb := 0, dg := 0, ul := 1, ur := 1, ce := 0, lx := 1, tc := 1, ry := 0, ad := 1, ab := 1,
      bb := 1, ss := 0 } := by
  decide +kernel

/-- `1ca qa800-q6 E=0 0+L>M |U:0 V:0 W:U>WL,U>WR>0 |LS:FN,J>LSA 7 |A:1 B:1 Z:124 ` -/
theorem x1ca (e : Env) (ex : Bool) (s : S) :
    exec e (ros 0x1ca) ex s = .ok { s with
      M := s.L, alu := s.L, aob := s.L, u := 0#8, w := 0#8, EDST := 3#2, LSA := s.FN ++ s.J, ROAR := 0x127 } := by
  rw [w1ca]; simp

/-- Word 12a. -/
theorem w12a : ros 0x12a = {
      lu := 1, mv := 0, zp := 256, zf := 10, zn := 4, tr := 0, ws := 3, sf := 6, iv := 0, al := 0, wm := 1, up := 2,
      md := 0, lb := 0, mb := 0, dg := 0, ul := 3, ur := 2, ce := 14, lx := 0, tc := 1, ry := 0, ad := 1, ab := 1,
      bb := 1, ss := 24 } := by
  decide +kernel

/-- `12a qa800-q8 E=e 0+0>T |U:MD,F>U V:0 W:?>WL,V>WR>W>MMB |LS:WS,E>LSA LS>L>LS |SS:E>S47 |A:1 B:1 Z:128 ` -/
theorem x12a (e : Env) (ex : Bool) (s : S) :
    exec e (ros 0x12a) ex s = .ok { s with
      L := s.LS 30#6, M := putByte s.M s.MB (mvfL s.mvf (BitVec.setWidth 8 s.MD <<< 4 ||| s.F) 0#8), alu := 0#32,
      aob := 0#32, u := BitVec.setWidth 8 s.MD <<< 4 ||| s.F,
      w := mvfL s.mvf (BitVec.setWidth 8 s.MD <<< 4 ||| s.F) 0#8, EDST := 3#2, LSA := 30#6,
      St := { s.St with s4 := true, s5 := true, s6 := true, s7 := false }, ROAR := 0x12b } := by
  rw [w12a]; simp

/-- Word 1c8. -/
theorem w1c8 : ros 0x1c8 = {
      lu := 0, mv := 0, zp := 384, zf := 5, zn := 4, tr := 0, ws := 4, sf := 7, iv := 0, al := 0, wm := 15, up := 2,
      md := 0, lb := 0, mb := 0, dg := 0, ul := 1, ur := 0, ce := 6, lx := 0, tc := 1, ry := 0, ad := 1, ab := 0,
      bb := 1, ss := 0 } := by
  decide +kernel

/-- `1c8 qa800-l4 E=6 0+0>T |U:0 V:0 W:U>WL,E>WR>W>MD,F |LS:FN,J>LSA 7 |A:0 B:1 Z:194 ` -/
theorem x1c8 (e : Env) (ex : Bool) (s : S) :
    exec e (ros 0x1c8) ex s = .ok { s with
      alu := 0#32, aob := 0#32, u := 0#8, w := 6#8, F := 6#8, MD := 0#4, EDST := 3#2, LSA := s.FN ++ s.J,
      ROAR := 0x195 } := by
  rw [w1c8]; simp

/-- Word 327. -/
theorem w327 : ros 0x327 = {
      lu := 0, mv := 0, zp := 3072, zf := 15, zn := 4, tr := 0, ws := 4, sf := 7, iv := 0, al := 0, wm := 0, up := 2,
      md := 0, lb := 0, mb := 0, dg := 0, ul := 1, ur := 1, ce := 0, lx := 0, tc := 1, ry := 0, ad := 1, ab := 49,
      bb := 0, ss := 0 } := by
  decide +kernel

/-- `327 qg406-j7 E=0 0+0>T |U:0 V:0 W:U>WL,U>WR>0 |LS:FN,J>LSA 7 |A:W(67)-AB B:0 Z:c3c ` -/
theorem x327 (e : Env) (ex : Bool) (s : S) :
    exec e (ros 0x327) ex s = .ok { s with
      alu := 0#32, aob := 0#32, u := 0#8, w := 0#8, EDST := 3#2, LSA := s.FN ++ s.J,
      ROAR := 3132 ||| 2 * (s.w &&& 2#8 != 0#8).toNat + (s.w &&& 1#8 != 0#8).toNat } := by
  rw [w327]; simp

/-- Word 1c9. -/
theorem w1c9 : ros 0x1c9 = {
      lu := 0, mv := 0, zp := 384, zf := 15, zn := 4, tr := 15, ws := 4, sf := 7, iv := 0, al := 0, wm := 0, up := 2,
      md := 0, lb := 0, mb := 0, dg := 0, ul := 1, ur := 1, ce := 0, lx := 0, tc := 1, ry := 1, ad := 1, ab := 0,
      bb := 0, ss := 31 } := by
  decide +kernel

/-- `1c9 qa800-e5 E=0 R+0>A |LS:FN,J>LSA 7 |SS:F->KEY |A:0 B:0 Z:1bc ` -/
theorem x1c9 (e : Env) (ex : Bool) (s : S) :
    exec e (ros 0x1c9) ex s = if ((s.R &&& 16777215#32) >>> 11).toNat < 256 then .ok { s with
      SAR := s.R &&& 16777215#32, alu := s.R, aob := s.R, u := 0#8, w := 0#8, EDST := 3#2,
      LSA := s.FN ++ s.J, initMem := true,
      MP := (fun i => if i = ((s.R &&& 16777215#32) >>> 11).toNat then s.F else s.MP i),
      ROAR := 0x1bc } else .oob := by
  rw [w1c9]
  by_cases h : ((s.R &&& 16777215#32) >>> 11).toNat < 256
  · rw [if_pos h]
    simp [keyIx]; simp at h; simp [h]
  · rw [if_neg h]
    simp [keyIx]; simp at h; simp [Nat.not_lt.2 h]

/-- Word 1bc. -/
theorem w1bc : ros 0x1bc = {
      lu := 0, mv := 0, zp := 2304, zf := 11, zn := 4, tr := 15, ws := 4, sf := 7, iv := 0, al := 0, wm := 0, up := 2,
      md := 0, lb := 0, mb := 0, dg := 0, ul := 1, ur := 1, ce := 6, lx := 3, tc := 1, ry := 1, ad := 1, ab := 1,
      bb := 1, ss := 31 } := by
  decide +kernel

/-- `1bc qa800-e7 E=6 R+E>A |LS:FN,J>LSA 7 |SS:F->KEY |A:1 B:1 Z:92c ` -/
theorem x1bc (e : Env) (ex : Bool) (s : S) :
    exec e (ros 0x1bc) ex s =
      if ((12#32 + s.R &&& 16777215#32) >>> 11).toNat < 256 then .ok { s with
      SAR := 12#32 + s.R &&& 16777215#32, alu := 12#32 + s.R, aob := 12#32 + s.R, u := 0#8, w := 0#8,
      EDST := 3#2, LSA := s.FN ++ s.J, initMem := true,
      MP := (fun i => if i = ((12#32 + s.R &&& 16777215#32) >>> 11).toNat then s.F else s.MP i),
      ROAR := 0x92f } else .oob := by
  rw [w1bc]
  by_cases h : ((12#32 + s.R &&& 16777215#32) >>> 11).toNat < 256
  · rw [if_pos h]
    simp [keyIx]; simp at h; simp [h]
  · rw [if_neg h]
    simp [keyIx]; simp at h; simp [Nat.not_lt.2 h]

/-- Word 180. -/
theorem w180 : ros 0x180 = {
      lu := 0, mv := 0, zp := 448, zf := 2, zn := 4, tr := 15, ws := 4, sf := 7, iv := 0, al := 0, wm := 0, up := 1,
      md := 0, lb := 0, mb := 1, dg := 0, ul := 1, ur := 1, ce := 0, lx := 0, tc := 1, ry := 1, ad := 1, ab := 19,
      bb := 0, ss := 30 } := by
  decide +kernel

/-- `180 qa800-q3 E=0 R+0>A |LS:FN,J>LSA 7 |CNTmb=3 |SS:KEY->F |A:WR=0 B:0 Z:1c8 ` -/
theorem x180 (e : Env) (ex : Bool) (s : S) :
    exec e (ros 0x180) ex s = if ((s.R &&& 16777215#32) >>> 11).toNat < 256 then .ok { s with
      SAR := s.R &&& 16777215#32, alu := s.R, aob := s.R, u := 0#8, w := 0#8, EDST := 3#2,
      LSA := s.FN ++ s.J, initMem := true, MB := 3#2,
      F := s.MP ((s.R &&& 16777215#32) >>> 11).toNat,
      ROAR := 456 ||| 2 * (s.w &&& 15#8 == 0#8).toNat } else .oob := by
  rw [w180]
  by_cases h : ((s.R &&& 16777215#32) >>> 11).toNat < 256
  · rw [if_pos h]
    simp [keyIx]; simp at h; simp [h]
  · rw [if_neg h]
    simp [keyIx]; simp at h; simp [Nat.not_lt.2 h]

/-- Word 127. -/
theorem w127 : ros 0x127 = {
      lu := 0, mv := 0, zp := 256, zf := 10, zn := 4, tr := 0, ws := 4, sf := 7, iv := 0, al := 0, wm := 0, up := 2,
      md := 0, lb := 0, mb := 0, dg := 0, ul := 1, ur := 1, ce := 0, lx := 0, tc := 1, ry := 0, ad := 1, ab := 1,
      bb := 0, ss := 30 } := by
  decide +kernel

/-- `127 qa800-q7 E=0 0+0>T |LS:FN,J>LSA 7 |SS:KEY->F |A:1 B:0 Z:128 ` -/
theorem x127 (e : Env) (ex : Bool) (s : S) :
    exec e (ros 0x127) ex s = if (s.SAR >>> 11).toNat < 256 then .ok { s with
      alu := 0#32, aob := 0#32, u := 0#8, w := 0#8, EDST := 3#2,
      LSA := s.FN ++ s.J, F := s.MP (s.SAR >>> 11).toNat, ROAR := 0x12a } else .oob := by
  rw [w127]
  by_cases h : (s.SAR >>> 11).toNat < 256
  · rw [if_pos h]
    simp [keyIx]; simp at h; simp [h]
  · rw [if_neg h]
    simp [keyIx]; simp at h; simp [Nat.not_lt.2 h]

end Verif.Cpu50
