import Verif.Cpu50.Words5

/-!
# Model 2050: words of the interruptions

Written by a script from the model itself; each lemma is the effect of one word of `/repo/src/model2050/ros.txt`
on the processor, with the text of the word as the listing names its fields.
-/

namespace Verif.Cpu50

attribute [local simp] exec needsChan front condA condB combine abBits nextBase leftBus leftIn rightBus rightIn uBus vBus ceB moverL moverR adCin ivStep smif dgStep cinW adder adStep lateB alStep ssEarly trStep protect ssLate wsStep wmStep upStep finish Out.bind ceBit fpStats Nat.testBit_eq_decide_div_mod_eq mov_whole

/-- Word 702. -/
theorem w702 : ros 0x702 = {
      lu := 2, mv := 0, zp := 1856, zf := 4, zn := 7, tr := 6, ws := 4, sf := 7, iv := 0, al := 0, wm := 3, up := 0,
      md := 0, lb := 0, mb := 1, dg := 0, ul := 1, ur := 1, ce := 0, lx := 0, tc := 1, ry := 1, ad := 1, ab := 36,
      bb := 0, ss := 0 } := by
  decide +kernel

/-- `702 qj200-n1 E=0 R+0>R,A |U:R3>U V:0 W:U>WL,U>WR>W67>LB |LS:FN,J>LSA 7 |CNTmb=0 |A:PROB B:0 Z:750 B|(A=1)>B` -/
theorem x702 (e : Env) (ex : Bool) (s : S) :
    exec e (ros 0x702) ex s = .ok { s with
      SAR := s.R &&& 16777215#32, alu := s.R, aob := s.R, u := BitVec.setWidth 8 s.R, w := BitVec.setWidth 8 s.R,
      MB := 0#2, LB := BitVec.setWidth 2 s.R, EDST := 3#2, LSA := s.FN ++ s.J, initMem := true,
      ROAR := 1872 ||| 2 * (s.AMWP &&& 1#4 != 0#4).toNat + (s.AMWP &&& 1#4 != 0#4).toNat } := by
  rw [w702]; simp

/-- Word 1a2. -/
theorem w1a2 : ros 0x1a2 = {
      lu := 2, mv := 0, zp := 384, zf := 0, zn := 4, tr := 0, ws := 6, sf := 6, iv := 0, al := 0, wm := 0, up := 1,
      md := 0, lb := 1, mb := 0, dg := 0, ul := 1, ur := 1, ce := 0, lx := 0, tc := 1, ry := 0, ad := 1, ab := 36,
      bb := 1, ss := 38 } := by
  decide +kernel

/-- `1a2 qa800-e1 E=0 0+0>T |U:R3>U V:0 W:U>WL,U>WR>0 |LS:FN,MD>LSA LS>L>LS |CNTlb=3 |SS:E(13)>WFN |A:PROB B:1 Z:180 ` -/
theorem x1a2 (e : Env) (ex : Bool) (s : S) :
    exec e (ros 0x1a2) ex s = .ok { s with
      L := s.LS (s.FN ++ s.MD), alu := 0#32, aob := 0#32, u := BitVec.setWidth 8 s.R, w := BitVec.setWidth 8 s.R,
      LB := 3#2, EDST := 3#2, mvf := 0#3, LSA := s.FN ++ s.MD, ROAR := 384 ||| 2 * (s.AMWP &&& 1#4 != 0#4).toNat + 1 } := by
  rw [w1a2]; simp

/-- Word 1a6. -/
theorem w1a6 : ros 0x1a6 = {
      lu := 2, mv := 0, zp := 384, zf := 0, zn := 7, tr := 0, ws := 6, sf := 6, iv := 0, al := 0, wm := 0, up := 2,
      md := 0, lb := 0, mb := 0, dg := 0, ul := 1, ur := 1, ce := 0, lx := 0, tc := 1, ry := 0, ad := 1, ab := 36,
      bb := 0, ss := 38 } := by
  decide +kernel

/-- `1a6 qa800-n1 E=0 0+0>T |U:R3>U V:0 W:U>WL,U>WR>0 |LS:FN,MD>LSA LS>L>LS |SS:E(13)>WFN |A:PROB B:0 Z:180 B|(A=1)>B` -/
theorem x1a6 (e : Env) (ex : Bool) (s : S) :
    exec e (ros 0x1a6) ex s = .ok { s with
      L := s.LS (s.FN ++ s.MD), alu := 0#32, aob := 0#32, u := BitVec.setWidth 8 s.R, w := BitVec.setWidth 8 s.R,
      EDST := 3#2, mvf := 0#3, LSA := s.FN ++ s.MD,
      ROAR := 384 ||| 2 * (s.AMWP &&& 1#4 != 0#4).toNat + (s.AMWP &&& 1#4 != 0#4).toNat } := by
  rw [w1a6]; simp

/-- Word 932. -/
theorem w932 : ros 0x932 = {
      lu := 0, mv := 0, zp := 2304, zf := 0, zn := 4, tr := 1, ws := 1, sf := 6, iv := 0, al := 16, wm := 3, up := 3,
      md := 0, lb := 0, mb := 1, dg := 0, ul := 1, ur := 0, ce := 3, lx := 6, tc := 1, ry := 0, ad := 1, ab := 36,
      bb := 1, ss := 0 } := by
  decide +kernel

/-- `932 qk700-a1 E=3 0+4>R AL:SL4>F |U:0 V:0 W:U>WL,E>WR>W67>LB |LS:WS1>LSA LS>L>LS |CNTmb+ |A:PROB B:1 Z:900 ` -/
theorem x932 (e : Env) (ex : Bool) (s : S) :
    exec e (ros 0x932) ex s = .ok { s with
      R := 64#32, L := s.LS 17#6, alu := 4#32, aob := 64#32, u := 0#8, w := 3#8, F := hiDig 4#32, MB := s.MB + 1#2,
      LB := 3#2, EDST := 3#2, LSA := 17#6, ROAR := 2304 ||| 2 * (s.AMWP &&& 1#4 != 0#4).toNat + 1 } := by
  rw [w932]; simp

/-- Word 936. -/
theorem w936 : ros 0x936 = {
      lu := 0, mv := 0, zp := 2304, zf := 0, zn := 7, tr := 0, ws := 4, sf := 7, iv := 0, al := 0, wm := 14, up := 3,
      md := 0, lb := 0, mb := 1, dg := 0, ul := 1, ur := 0, ce := 4, lx := 0, tc := 1, ry := 0, ad := 1, ab := 36,
      bb := 0, ss := 24 } := by
  decide +kernel

/-- `936 qk700-e1 E=4 0+0>T |U:0 V:0 W:U>WL,E>WR>WR>F |LS:FN,J>LSA 7 |CNTmb+ |SS:E>S47 |A:PROB B:0 Z:900 B|(A=1)>B` -/
theorem x936 (e : Env) (ex : Bool) (s : S) :
    exec e (ros 0x936) ex s = .ok { s with
      alu := 0#32, aob := 0#32, u := 0#8, w := 4#8, F := 4#8, MB := s.MB + 1#2, EDST := 3#2, LSA := s.FN ++ s.J,
      St := { s.St with s4 := false, s5 := true, s6 := false, s7 := false },
      ROAR := 2304 ||| 2 * (s.AMWP &&& 1#4 != 0#4).toNat + (s.AMWP &&& 1#4 != 0#4).toNat } := by
  rw [w936]; simp

/-- Word 93a. -/
theorem w93a : ros 0x93a = {
      lu := 0, mv := 0, zp := 2304, zf := 14, zn := 4, tr := 0, ws := 4, sf := 7, iv := 0, al := 0, wm := 14, up := 0,
      md := 0, lb := 0, mb := 1, dg := 0, ul := 1, ur := 0, ce := 2, lx := 0, tc := 1, ry := 0, ad := 1, ab := 36,
      bb := 1, ss := 0 } := by
  decide +kernel

/-- `93a qk700-j1 E=2 0+0>T |U:0 V:0 W:U>WL,E>WR>WR>F |LS:FN,J>LSA 7 |CNTmb=0 |A:PROB B:1 Z:938 ` -/
theorem x93a (e : Env) (ex : Bool) (s : S) :
    exec e (ros 0x93a) ex s = .ok { s with
      alu := 0#32, aob := 0#32, u := 0#8, w := 2#8, F := 2#8, MB := 0#2, EDST := 3#2, LSA := s.FN ++ s.J,
      ROAR := 2360 ||| 2 * (s.AMWP &&& 1#4 != 0#4).toNat + 1 } := by
  rw [w93a]; simp

/-- Word 93e. -/
theorem w93e : ros 0x93e = {
      lu := 0, mv := 0, zp := 2304, zf := 14, zn := 4, tr := 0, ws := 4, sf := 7, iv := 0, al := 0, wm := 14, up := 0,
      md := 0, lb := 0, mb := 1, dg := 0, ul := 1, ur := 0, ce := 8, lx := 0, tc := 1, ry := 0, ad := 1, ab := 36,
      bb := 1, ss := 0 } := by
  decide +kernel

/-- `93e qk700-n1 E=8 0+0>T |U:0 V:0 W:U>WL,E>WR>WR>F |LS:FN,J>LSA 7 |CNTmb=0 |A:PROB B:1 Z:938 ` -/
theorem x93e (e : Env) (ex : Bool) (s : S) :
    exec e (ros 0x93e) ex s = .ok { s with
      alu := 0#32, aob := 0#32, u := 0#8, w := 8#8, F := 8#8, MB := 0#2, EDST := 3#2, LSA := s.FN ++ s.J,
      ROAR := 2360 ||| 2 * (s.AMWP &&& 1#4 != 0#4).toNat + 1 } := by
  rw [w93e]; simp

/-- Word 70e. -/
theorem w70e : ros 0x70e = {
      lu := 0, mv := 1, zp := 3840, zf := 3, zn := 4, tr := 3, ws := 4, sf := 7, iv := 0, al := 6, wm := 15, up := 0,
      md := 0, lb := 0, mb := 1, dg := 0, ul := 2, ur := 2, ce := 0, lx := 0, tc := 1, ry := 1, ad := 1, ab := 36,
      bb := 0, ss := 0 } := by
  decide +kernel

/-- `70e qy110-c1 E=0 R+0>M AL:IA>H |U:0 V:MLB>V W:V>WL,V>WR>W>MD,F |LS:FN,J>LSA 7 |CNTmb=0 |A:PROB B:0 Z:f0c ` -/
theorem x70e (e : Env) (ex : Bool) (s : S) :
    exec e (ros 0x70e) ex s = .ok { s with
      H := s.H &&& 4278190080#32 ||| s.IA &&& 16777215#32, M := s.R, alu := s.R, aob := s.R, u := 0#8,
      w := byteOf s.M s.LB, F := byteOf s.M s.LB &&& 15#8, MD := BitVec.setWidth 4 (byteOf s.M s.LB >>> 4), MB := 0#2,
      EDST := if byteOf s.M s.LB &&& 252#8 = 32#8 then BitVec.setWidth 2 (byteOf s.M s.LB) else 3#2,
      LSA := s.FN ++ s.J, ROAR := 3852 ||| 2 * (s.AMWP &&& 1#4 != 0#4).toNat } := by
  rw [w70e]; simp

/-- Word 753. -/
theorem w753 : ros 0x753 = {
      lu := 0, mv := 0, zp := 384, zf := 5, zn := 4, tr := 0, ws := 4, sf := 7, iv := 0, al := 0, wm := 15, up := 2,
      md := 0, lb := 0, mb := 0, dg := 0, ul := 1, ur := 0, ce := 2, lx := 0, tc := 1, ry := 0, ad := 1, ab := 0,
      bb := 1, ss := 0 } := by
  decide +kernel

/-- `753 qj200-j3 E=2 0+0>T |U:0 V:0 W:U>WL,E>WR>W>MD,F |LS:FN,J>LSA 7 |A:0 B:1 Z:194 ` -/
theorem x753 (e : Env) (ex : Bool) (s : S) :
    exec e (ros 0x753) ex s = .ok { s with
      alu := 0#32, aob := 0#32, u := 0#8, w := 2#8, F := 2#8, MD := 0#4, EDST := 3#2, LSA := s.FN ++ s.J,
      ROAR := 0x195 } := by
  rw [w753]; simp

/-- Word 903. -/
theorem w903 : ros 0x903 = {
      lu := 0, mv := 0, zp := 384, zf := 5, zn := 4, tr := 0, ws := 4, sf := 7, iv := 0, al := 0, wm := 15, up := 2,
      md := 0, lb := 0, mb := 0, dg := 0, ul := 1, ur := 0, ce := 2, lx := 0, tc := 1, ry := 0, ad := 1, ab := 0,
      bb := 1, ss := 0 } := by
  decide +kernel

/-- `903 qk700-e2 E=2 0+0>T |U:0 V:0 W:U>WL,E>WR>W>MD,F |LS:FN,J>LSA 7 |A:0 B:1 Z:194 ` -/
theorem x903 (e : Env) (ex : Bool) (s : S) :
    exec e (ros 0x903) ex s = .ok { s with
      alu := 0#32, aob := 0#32, u := 0#8, w := 2#8, F := 2#8, MD := 0#4, EDST := 3#2, LSA := s.FN ++ s.J,
      ROAR := 0x195 } := by
  rw [w903]; simp

/-- Word 93b. -/
theorem w93b : ros 0x93b = {
      lu := 0, mv := 0, zp := 384, zf := 5, zn := 4, tr := 0, ws := 4, sf := 7, iv := 0, al := 0, wm := 15, up := 2,
      md := 0, lb := 0, mb := 0, dg := 0, ul := 1, ur := 0, ce := 2, lx := 0, tc := 1, ry := 0, ad := 1, ab := 0,
      bb := 1, ss := 0 } := by
  decide +kernel

/-- `93b qk700-s2 E=2 0+0>T |U:0 V:0 W:U>WL,E>WR>W>MD,F |LS:FN,J>LSA 7 |A:0 B:1 Z:194 ` -/
theorem x93b (e : Env) (ex : Bool) (s : S) :
    exec e (ros 0x93b) ex s = .ok { s with
      alu := 0#32, aob := 0#32, u := 0#8, w := 2#8, F := 2#8, MD := 0#4, EDST := 3#2, LSA := s.FN ++ s.J,
      ROAR := 0x195 } := by
  rw [w93b]; simp

/-- Word f0e. -/
theorem wf0e : ros 0xf0e = {
      lu := 0, mv := 0, zp := 384, zf := 5, zn := 4, tr := 0, ws := 4, sf := 7, iv := 0, al := 0, wm := 15, up := 2,
      md := 0, lb := 0, mb := 0, dg := 0, ul := 1, ur := 0, ce := 2, lx := 0, tc := 1, ry := 0, ad := 1, ab := 0,
      bb := 1, ss := 0 } := by
  decide +kernel

/-- `f0e qy110-g2 E=2 0+0>T |U:0 V:0 W:U>WL,E>WR>W>MD,F |LS:FN,J>LSA 7 |A:0 B:1 Z:194 ` -/
theorem xf0e (e : Env) (ex : Bool) (s : S) :
    exec e (ros 0xf0e) ex s = .ok { s with
      alu := 0#32, aob := 0#32, u := 0#8, w := 2#8, F := 2#8, MD := 0#4, EDST := 3#2, LSA := s.FN ++ s.J,
      ROAR := 0x195 } := by
  rw [wf0e]; simp

/-- Word 1c2. -/
theorem w1c2 : ros 0x1c2 = {
      lu := 0, mv := 0, zp := 384, zf := 5, zn := 4, tr := 0, ws := 4, sf := 7, iv := 0, al := 0, wm := 15, up := 2,
      md := 0, lb := 0, mb := 0, dg := 0, ul := 1, ur := 0, ce := 6, lx := 0, tc := 1, ry := 0, ad := 1, ab := 0,
      bb := 1, ss := 0 } := by
  decide +kernel

/-- `1c2 qt300-n2 E=6 0+0>T |U:0 V:0 W:U>WL,E>WR>W>MD,F |LS:FN,J>LSA 7 |A:0 B:1 Z:194 ` -/
theorem x1c2 (e : Env) (ex : Bool) (s : S) :
    exec e (ros 0x1c2) ex s = .ok { s with
      alu := 0#32, aob := 0#32, u := 0#8, w := 6#8, F := 6#8, MD := 0#4, EDST := 3#2, LSA := s.FN ++ s.J,
      ROAR := 0x195 } := by
  rw [w1c2]; simp

/-- Word 1c0. -/
theorem w1c0 : ros 0x1c0 = {
      lu := 0, mv := 0, zp := 384, zf := 5, zn := 4, tr := 0, ws := 4, sf := 7, iv := 0, al := 0, wm := 15, up := 2,
      md := 0, lb := 0, mb := 0, dg := 0, ul := 1, ur := 0, ce := 5, lx := 0, tc := 1, ry := 0, ad := 1, ab := 0,
      bb := 1, ss := 0 } := by
  decide +kernel

/-- `1c0 qt300-j2 E=5 0+0>T |U:0 V:0 W:U>WL,E>WR>W>MD,F |LS:FN,J>LSA 7 |A:0 B:1 Z:194 ` -/
theorem x1c0 (e : Env) (ex : Bool) (s : S) :
    exec e (ros 0x1c0) ex s = .ok { s with
      alu := 0#32, aob := 0#32, u := 0#8, w := 5#8, F := 5#8, MD := 0#4, EDST := 3#2, LSA := s.FN ++ s.J,
      ROAR := 0x195 } := by
  rw [w1c0]; simp

/-- Word 218. -/
theorem w218 : ros 0x218 = {
      lu := 0, mv := 0, zp := 384, zf := 5, zn := 4, tr := 0, ws := 4, sf := 7, iv := 0, al := 0, wm := 15, up := 2,
      md := 0, lb := 0, mb := 0, dg := 0, ul := 1, ur := 0, ce := 8, lx := 0, tc := 1, ry := 0, ad := 1, ab := 0,
      bb := 1, ss := 0 } := by
  decide +kernel

/-- `218 qb730-n7 E=8 0+0>T |U:0 V:0 W:U>WL,E>WR>W>MD,F |LS:FN,J>LSA 7 |A:0 B:1 Z:194 ` -/
theorem x218 (e : Env) (ex : Bool) (s : S) :
    exec e (ros 0x218) ex s = .ok { s with
      alu := 0#32, aob := 0#32, u := 0#8, w := 8#8, F := 8#8, MD := 0#4, EDST := 3#2, LSA := s.FN ++ s.J,
      ROAR := 0x195 } := by
  rw [w218]; simp

/-- Word 1aa. -/
theorem w1aa : ros 0x1aa = {
      lu := 0, mv := 1, zp := 384, zf := 7, zn := 4, tr := 1, ws := 4, sf := 7, iv := 0, al := 10, wm := 15, up := 2,
      md := 0, lb := 0, mb := 0, dg := 0, ul := 2, ur := 2, ce := 8, lx := 3, tc := 1, ry := 0, ad := 1, ab := 0,
      bb := 0, ss := 0 } := by
  decide +kernel

/-- `1aa qa400-g1 E=8 0+E>R AL:SL1>Q |U:0 V:MLB>V W:V>WL,V>WR>W>MD,F |LS:FN,J>LSA 7 |A:0 B:0 Z:19c ` -/
theorem x1aa (e : Env) (ex : Bool) (s : S) :
    exec e (ros 0x1aa) ex s = .ok { s with
      R := 32#32, alu := 16#32, aob := 32#32, u := 0#8, w := byteOf s.M s.LB, F := byteOf s.M s.LB &&& 15#8,
      MD := BitVec.setWidth 4 (byteOf s.M s.LB >>> 4),
      EDST := if byteOf s.M s.LB &&& 252#8 = 32#8 then BitVec.setWidth 2 (byteOf s.M s.LB) else 3#2,
      LSA := s.FN ++ s.J, Q := (16#32).msb, ROAR := 0x19c } := by
  rw [w1aa]; simp

/-- Word 182. -/
theorem w182 : ros 0x182 = {
      lu := 0, mv := 0, zp := 384, zf := 5, zn := 4, tr := 0, ws := 4, sf := 7, iv := 0, al := 0, wm := 15, up := 2,
      md := 0, lb := 0, mb := 0, dg := 0, ul := 1, ur := 0, ce := 1, lx := 0, tc := 1, ry := 0, ad := 1, ab := 0,
      bb := 1, ss := 0 } := by
  decide +kernel

/-- `182 qm111-e1 E=1 0+0>T |U:0 V:0 W:U>WL,E>WR>W>MD,F |LS:FN,J>LSA 7 |A:0 B:1 Z:194 ` -/
theorem x182 (e : Env) (ex : Bool) (s : S) :
    exec e (ros 0x182) ex s = .ok { s with
      alu := 0#32, aob := 0#32, u := 0#8, w := 1#8, F := 1#8, MD := 0#4, EDST := 3#2, LSA := s.FN ++ s.J,
      ROAR := 0x195 } := by
  rw [w182]; simp

/-- Word 195. -/
theorem w195 : ros 0x195 = {
      lu := 0, mv := 0, zp := 384, zf := 7, zn := 4, tr := 1, ws := 4, sf := 7, iv := 0, al := 10, wm := 0, up := 2,
      md := 0, lb := 0, mb := 0, dg := 0, ul := 1, ur := 1, ce := 10, lx := 3, tc := 1, ry := 0, ad := 1, ab := 0,
      bb := 0, ss := 0 } := by
  decide +kernel

/-- `195 qt310-l7 E=a 0+E>R AL:SL1>Q |U:0 V:0 W:U>WL,U>WR>0 |LS:FN,J>LSA 7 |A:0 B:0 Z:19c ` -/
theorem x195 (e : Env) (ex : Bool) (s : S) :
    exec e (ros 0x195) ex s = .ok { s with
      R := 40#32, alu := 20#32, aob := 40#32, u := 0#8, w := 0#8, EDST := 3#2, LSA := s.FN ++ s.J, Q := (20#32).msb,
      ROAR := 0x19c } := by
  rw [w195]; simp

/-- Word 142. -/
theorem w142 : ros 0x142 = {
      lu := 0, mv := 0, zp := 384, zf := 5, zn := 4, tr := 0, ws := 4, sf := 7, iv := 0, al := 0, wm := 15, up := 2,
      md := 0, lb := 0, mb := 0, dg := 0, ul := 1, ur := 0, ce := 4, lx := 0, tc := 1, ry := 0, ad := 1, ab := 0,
      bb := 1, ss := 0 } := by
  decide +kernel

/-- `142 qt300-e2 E=4 0+0>T |U:0 V:0 W:U>WL,E>WR>W>MD,F |LS:FN,J>LSA 7 |A:0 B:1 Z:194 ` -/
theorem x142 (e : Env) (ex : Bool) (s : S) :
    exec e (ros 0x142) ex s = .ok { s with
      alu := 0#32, aob := 0#32, u := 0#8, w := 4#8, F := 4#8, MD := 0#4, EDST := 3#2, LSA := s.FN ++ s.J,
      ROAR := 0x195 } := by
  rw [w142]; simp

/-- Word 14b. -/
theorem w14b : ros 0x14b = {
      lu := 0, mv := 0, zp := 384, zf := 3, zn := 7, tr := 28, ws := 4, sf := 7, iv := 0, al := 6, wm := 0, up := 1,
      md := 0, lb := 1, mb := 1, dg := 0, ul := 1, ur := 1, ce := 0, lx := 0, tc := 1, ry := 0, ad := 1, ab := 58,
      bb := 0, ss := 28 } := by
  decide +kernel

/-- `14b qt200-n2 E=0 0+0>M,SP AL:IA>H |U:0 V:0 W:U>WL,U>WR>0 |LS:FN,J>LSA 7 |CNTlbmb=3 |SS:OPPANEL->S47 |A:EXT,CHIRPT B:0 Z:18c B|(A=1)>B` -/
theorem x14b (e : Env) (ex : Bool) (s : S) :
    exec e (ros 0x14b) ex s = .ok { s with
      H := s.H &&& 4278190080#32 ||| s.IA &&& 16777215#32, M := 0#32, alu := 0#32, aob := 0#32, u := 0#8, w := 0#8,
      KEY := 0#4, MB := 3#2, LB := 3#2, EDST := 3#2, LSA := s.FN ++ s.J,
      St := { s.St with s4 := false, s5 := false, s6 := false, s7 := false },
      ROAR := 396 ||| 2 * (s.timUp || s.MASK &&& 1#8 != 0#8 && (s.intr || s.timIrq)).toNat + (s.timUp || s.BCHI &&& s.MASK != 0#8 || (s.timUp || s.MASK &&& 1#8 != 0#8 && (s.intr || s.timIrq))).toNat } := by
  rw [w14b]; simp

/-- Word 147. -/
theorem w147 : ros 0x147 = {
      lu := 0, mv := 0, zp := 384, zf := 3, zn := 7, tr := 28, ws := 4, sf := 7, iv := 0, al := 6, wm := 0, up := 1,
      md := 0, lb := 1, mb := 1, dg := 0, ul := 1, ur := 1, ce := 0, lx := 0, tc := 1, ry := 0, ad := 1, ab := 58,
      bb := 0, ss := 28 } := by
  decide +kernel

/-- `147 qt200-j2 E=0 0+0>M,SP AL:IA>H |U:0 V:0 W:U>WL,U>WR>0 |LS:FN,J>LSA 7 |CNTlbmb=3 |SS:OPPANEL->S47 |A:EXT,CHIRPT B:0 Z:18c B|(A=1)>B` -/
theorem x147 (e : Env) (ex : Bool) (s : S) :
    exec e (ros 0x147) ex s = .ok { s with
      H := s.H &&& 4278190080#32 ||| s.IA &&& 16777215#32, M := 0#32, alu := 0#32, aob := 0#32, u := 0#8, w := 0#8,
      KEY := 0#4, MB := 3#2, LB := 3#2, EDST := 3#2, LSA := s.FN ++ s.J,
      St := { s.St with s4 := false, s5 := false, s6 := false, s7 := false },
      ROAR := 396 ||| 2 * (s.timUp || s.MASK &&& 1#8 != 0#8 && (s.intr || s.timIrq)).toNat + (s.timUp || s.BCHI &&& s.MASK != 0#8 || (s.timUp || s.MASK &&& 1#8 != 0#8 && (s.intr || s.timIrq))).toNat } := by
  rw [w147]; simp

/-- Word 18c. -/
theorem w18c : ros 0x18c = {
      lu := 0, mv := 0, zp := 512, zf := 2, zn := 4, tr := 1, ws := 4, sf := 7, iv := 0, al := 0, wm := 0, up := 2,
      md := 0, lb := 1, mb := 0, dg := 0, ul := 1, ur := 1, ce := 0, lx := 0, tc := 1, ry := 4, ad := 1, ab := 6,
      bb := 7, ss := 0 } := by
  decide +kernel

/-- `18c qt200-c3 E=0 H+0>R |U:0 V:0 W:U>WL,U>WR>0 |LS:FN,J>LSA 7 |CNTlb- |A:S4 B:S5 Z:208 ` -/
theorem x18c (e : Env) (ex : Bool) (s : S) :
    exec e (ros 0x18c) ex s = .ok { s with
      R := s.H, alu := s.H, aob := s.H, u := 0#8, w := 0#8, LB := s.LB - 1#2, EDST := 3#2, LSA := s.FN ++ s.J,
      ROAR := 520 ||| 2 * s.St.s4.toNat + s.St.s5.toNat } := by
  rw [w18c]; simp

/-- Word 18f. -/
theorem w18f : ros 0x18f = {
      lu := 0, mv := 0, zp := 384, zf := 8, zn := 4, tr := 0, ws := 4, sf := 7, iv := 0, al := 0, wm := 1, up := 2,
      md := 0, lb := 0, mb := 0, dg := 0, ul := 0, ur := 1, ce := 5, lx := 0, tc := 1, ry := 0, ad := 1, ab := 37,
      bb := 1, ss := 0 } := by
  decide +kernel

/-- `18f qt210-g2 E=5 0+0>T |U:0 V:0 W:E>WL,U>WR>W>MMB |LS:FN,J>LSA 7 |A:TIMUP B:1 Z:1a0 ` -/
theorem x18f (e : Env) (ex : Bool) (s : S) :
    exec e (ros 0x18f) ex s = .ok { s with
      M := putByte s.M s.MB 80#8, alu := 0#32, aob := 0#32, u := 0#8, w := 80#8, EDST := 3#2, LSA := s.FN ++ s.J,
      ROAR := 416 ||| 2 * s.timUp.toNat + 1, timUp := false } := by
  rw [w18f]; simp

/-- Word 1a1. -/
theorem w1a1 : ros 0x1a1 = {
      lu := 4, mv := 0, zp := 384, zf := 7, zn := 4, tr := 1, ws := 4, sf := 7, iv := 0, al := 0, wm := 15, up := 2,
      md := 0, lb := 0, mb := 0, dg := 0, ul := 1, ur := 1, ce := 12, lx := 3, tc := 1, ry := 0, ad := 1, ab := 0,
      bb := 0, ss := 0 } := by
  decide +kernel

/-- `1a1 qt210-q3 E=c 0+E>R |U:XTR>U V:0 W:U>WL,U>WR>W>MD,F |LS:FN,J>LSA 7 |A:0 B:0 Z:19c ` -/
theorem x1a1 (e : Env) (ex : Bool) (s : S) :
    exec e (ros 0x1a1) ex s = .ok { s with
      R := 24#32, alu := 24#32, aob := 24#32,
      u := if s.timIrq = true then 128#8 else if s.intr = true then 64#8 else s.u,
      w := if s.timIrq = true then 128#8 else if s.intr = true then 64#8 else s.u,
      F := (if s.timIrq = true then 128#8 else if s.intr = true then 64#8 else s.u) &&& 15#8,
      MD := BitVec.setWidth 4 ((if s.timIrq = true then 128#8 else if s.intr = true then 64#8 else s.u) >>> 4),
      EDST := 3#2, LSA := s.FN ++ s.J, ROAR := 0x19c, timIrq := false, intr := s.timIrq && s.intr } := by
  rw [w1a1]; simp

/-- Word 19c. -/
theorem w19c : ros 0x19c = {
      lu := 0, mv := 0, zp := 384, zf := 12, zn := 4, tr := 28, ws := 3, sf := 6, iv := 0, al := 0, wm := 0, up := 1,
      md := 0, lb := 0, mb := 1, dg := 0, ul := 1, ur := 1, ce := 7, lx := 0, tc := 1, ry := 0, ad := 1, ab := 0,
      bb := 0, ss := 0 } := by
  decide +kernel

/-- `19c qt310-a1 E=7 0+0>M,SP |U:0 V:0 W:U>WL,U>WR>0 |LS:WS,E>LSA LS>L>LS |CNTmb=3 |A:0 B:0 Z:1b0 ` -/
theorem x19c (e : Env) (ex : Bool) (s : S) :
    exec e (ros 0x19c) ex s = .ok { s with
      L := s.LS 23#6, M := 0#32, alu := 0#32, aob := 0#32, u := 0#8, w := 0#8, KEY := 0#4, MB := 3#2, EDST := 3#2,
      LSA := 23#6, ROAR := 0x1b0 } := by
  rw [w19c]; simp

/-- Word 1b0. -/
theorem w1b0 : ros 0x1b0 = {
      lu := 0, mv := 0, zp := 384, zf := 13, zn := 4, tr := 3, ws := 4, sf := 7, iv := 0, al := 0, wm := 0, up := 2,
      md := 0, lb := 0, mb := 1, dg := 0, ul := 1, ur := 1, ce := 0, lx := 1, tc := 1, ry := 0, ad := 1, ab := 0,
      bb := 0, ss := 0 } := by
  decide +kernel

/-- `1b0 qt310-a2 E=0 0+L>M |U:0 V:0 W:U>WL,U>WR>0 |LS:FN,J>LSA 7 |CNTmb- |A:0 B:0 Z:1b4 ` -/
theorem x1b0 (e : Env) (ex : Bool) (s : S) :
    exec e (ros 0x1b0) ex s = .ok { s with
      M := s.L, alu := s.L, aob := s.L, u := 0#8, w := 0#8, MB := s.MB - 1#2, EDST := 3#2, LSA := s.FN ++ s.J,
      ROAR := 0x1b4 } := by
  rw [w1b0]; simp

/-- Word 1b4. -/
theorem w1b4 : ros 0x1b4 = {
      lu := 0, mv := 0, zp := 384, zf := 14, zn := 4, tr := 6, ws := 4, sf := 7, iv := 0, al := 0, wm := 1, up := 1,
      md := 0, lb := 0, mb := 1, dg := 0, ul := 1, ur := 1, ce := 0, lx := 0, tc := 1, ry := 1, ad := 1, ab := 0,
      bb := 0, ss := 0 } := by
  decide +kernel

/-- `1b4 qt310-a3 E=0 R+0>R,A |U:0 V:0 W:U>WL,U>WR>W>MMB |LS:FN,J>LSA 7 |CNTmb=3 |A:0 B:0 Z:1b8 ` -/
theorem x1b4 (e : Env) (ex : Bool) (s : S) :
    exec e (ros 0x1b4) ex s = .ok { s with
      M := putByte s.M s.MB 0#8, SAR := s.R &&& 16777215#32, alu := s.R, aob := s.R, u := 0#8, w := 0#8, MB := 3#2,
      EDST := 3#2, LSA := s.FN ++ s.J, initMem := true, ROAR := 0x1b8 } := by
  rw [w1b4]; simp

/-- Word 1b8. -/
theorem w1b8 : ros 0x1b8 = {
      lu := 1, mv := 0, zp := 384, zf := 12, zn := 4, tr := 7, ws := 1, sf := 0, iv := 0, al := 0, wm := 1, up := 2,
      md := 0, lb := 0, mb := 0, dg := 0, ul := 1, ur := 1, ce := 0, lx := 6, tc := 1, ry := 1, ad := 1, ab := 0,
      bb := 1, ss := 0 } := by
  decide +kernel

/-- `1b8 qt310-a4 E=0 R+4>L |U:MD,F>U V:0 W:U>WL,U>WR>W>MMB |LS:WS1>LSA R>LS |A:0 B:1 Z:1b0 ` -/
theorem x1b8 (e : Env) (ex : Bool) (s : S) :
    exec e (ros 0x1b8) ex s = .ok { s with
      L := 4#32 + s.R, M := putByte s.M s.MB (BitVec.setWidth 8 s.MD <<< 4 ||| s.F), alu := 4#32 + s.R,
      aob := 4#32 + s.R, u := BitVec.setWidth 8 s.MD <<< 4 ||| s.F, w := BitVec.setWidth 8 s.MD <<< 4 ||| s.F,
      EDST := 3#2, LSA := 17#6, ROAR := 0x1b1, LS := lsPut s.LS (17#6) s.R } := by
  rw [w1b8]; simp

/-- Word 1b1. -/
theorem w1b1 : ros 0x1b1 = {
      lu := 0, mv := 0, zp := 384, zf := 12, zn := 4, tr := 4, ws := 4, sf := 7, iv := 0, al := 6, wm := 0, up := 0,
      md := 0, lb := 0, mb := 1, dg := 0, ul := 1, ur := 1, ce := 0, lx := 0, tc := 1, ry := 2, ad := 1, ab := 1,
      bb := 1, ss := 0 } := by
  decide +kernel

/-- `1b1 qt310-a5 E=0 M+0>D AL:IA>H |U:0 V:0 W:U>WL,U>WR>0 |LS:FN,J>LSA 7 |CNTmb=0 |A:1 B:1 Z:1b0 ` -/
theorem x1b1 (e : Env) (ex : Bool) (s : S) (hk : s.KEY = 0#4) :
    exec e (ros 0x1b1) ex s = .ok { s with
      H := s.H &&& 4278190080#32 ||| s.IA &&& 16777215#32, SDR := s.M, alu := s.M, aob := s.M, u := 0#8, w := 0#8,
      KEY := 0#4, MB := 0#2, EDST := 3#2, LSA := s.FN ++ s.J, updD := true, ROAR := 0x1b3 } := by
  rw [w1b1]; simp [hk]

/-- Word 1b3. -/
theorem w1b3 : ros 0x1b3 = {
      lu := 0, mv := 0, zp := 384, zf := 13, zn := 4, tr := 3, ws := 4, sf := 7, iv := 0, al := 0, wm := 0, up := 2,
      md := 0, lb := 0, mb := 0, dg := 0, ul := 1, ur := 1, ce := 0, lx := 0, tc := 1, ry := 4, ad := 1, ab := 0,
      bb := 1, ss := 0 } := by
  decide +kernel

/-- `1b3 qt310-a6 E=0 H+0>M |U:0 V:0 W:U>WL,U>WR>0 |LS:FN,J>LSA 7 |A:0 B:1 Z:1b4 ` -/
theorem x1b3 (e : Env) (ex : Bool) (s : S) :
    exec e (ros 0x1b3) ex s = .ok { s with
      M := s.H, alu := s.H, aob := s.H, u := 0#8, w := 0#8, EDST := 3#2, LSA := s.FN ++ s.J, ROAR := 0x1b5 } := by
  rw [w1b3]; simp

/-- Word 1b5. -/
theorem w1b5 : ros 0x1b5 = {
      lu := 5, mv := 0, zp := 384, zf := 13, zn := 4, tr := 15, ws := 4, sf := 7, iv := 0, al := 0, wm := 1, up := 2,
      md := 0, lb := 0, mb := 0, dg := 0, ul := 1, ur := 1, ce := 0, lx := 1, tc := 1, ry := 0, ad := 1, ab := 1,
      bb := 1, ss := 0 } := by
  decide +kernel

/-- `1b5 qt310-a7 E=0 0+L>A |U:PSW>U V:0 W:U>WL,U>WR>W>MMB |LS:FN,J>LSA 7 |A:1 B:1 Z:1b4 ` -/
theorem x1b5 (e : Env) (ex : Bool) (s : S) :
    exec e (ros 0x1b5) ex s = .ok { s with
      M := putByte s.M s.MB (BitVec.setWidth 8 s.ILC <<< 6 ||| BitVec.setWidth 8 s.CC <<< 4 ||| BitVec.setWidth 8 s.PMASK),
      SAR := s.L &&& 16777215#32, alu := s.L, aob := s.L,
      u := BitVec.setWidth 8 s.ILC <<< 6 ||| BitVec.setWidth 8 s.CC <<< 4 ||| BitVec.setWidth 8 s.PMASK,
      w := BitVec.setWidth 8 s.ILC <<< 6 ||| BitVec.setWidth 8 s.CC <<< 4 ||| BitVec.setWidth 8 s.PMASK, EDST := 3#2,
      LSA := s.FN ++ s.J, initMem := true, ROAR := 0x1b7 } := by
  rw [w1b5]; simp

/-- Word 1b7. -/
theorem w1b7 : ros 0x1b7 = {
      lu := 0, mv := 0, zp := 256, zf := 3, zn := 4, tr := 7, ws := 1, sf := 2, iv := 0, al := 16, wm := 0, up := 2,
      md := 0, lb := 0, mb := 0, dg := 0, ul := 1, ur := 1, ce := 2, lx := 3, tc := 1, ry := 0, ad := 1, ab := 1,
      bb := 0, ss := 0 } := by
  decide +kernel

/-- `1b7 qt310-a8 E=2 0+E>L AL:SL4>F |U:0 V:0 W:U>WL,U>WR>0 |LS:WS1>LSA LS>R>LS |A:1 B:0 Z:10c ` -/
theorem x1b7 (e : Env) (ex : Bool) (s : S) :
    exec e (ros 0x1b7) ex s = .ok { s with
      R := s.LS 17#6, L := 64#32, alu := 4#32, aob := 64#32, u := 0#8, w := 0#8, F := hiDig 4#32, EDST := 3#2,
      LSA := 17#6, ROAR := 0x10e } := by
  rw [w1b7]; simp

/-- Word 10e. -/
theorem w10e : ros 0x10e = {
      lu := 0, mv := 0, zp := 256, zf := 3, zn := 4, tr := 4, ws := 4, sf := 7, iv := 0, al := 0, wm := 0, up := 2,
      md := 0, lb := 0, mb := 0, dg := 0, ul := 1, ur := 1, ce := 12, lx := 0, tc := 1, ry := 2, ad := 1, ab := 1,
      bb := 1, ss := 4 } := by
  decide +kernel

/-- `10e qt310-a9 E=c M+0>D |U:0 V:0 W:U>WL,U>WR>0 |LS:FN,J>LSA 7 |SS:E->SCHANCTL |A:1 B:1 Z:10c ` -/
theorem x10e (e : Env) (ex : Bool) (s : S) (hk : s.KEY = 0#4) :
    exec e (ros 0x10e) ex s = .ok { s with
      SDR := s.M, alu := s.M, aob := s.M, u := 0#8, w := 0#8, KEY := 0#4, EDST := 3#2, LSA := s.FN ++ s.J,
      updD := true, ROAR := 0x10f } := by
  rw [w10e]; simp [hk]

/-- Word 10f. -/
theorem w10f : ros 0x10f = {
      lu := 0, mv := 0, zp := 1856, zf := 4, zn := 4, tr := 6, ws := 4, sf := 7, iv := 0, al := 0, wm := 0, up := 2,
      md := 0, lb := 0, mb := 0, dg := 0, ul := 1, ur := 1, ce := 0, lx := 1, tc := 1, ry := 1, ad := 1, ab := 0,
      bb := 1, ss := 0 } := by
  decide +kernel

/-- `10f qt310-e9 E=0 R+L>R,A |U:0 V:0 W:U>WL,U>WR>0 |LS:FN,J>LSA 7 |A:0 B:1 Z:750 ` -/
theorem x10f (e : Env) (ex : Bool) (s : S) :
    exec e (ros 0x10f) ex s = .ok { s with
      R := s.L + s.R, SAR := s.L + s.R &&& 16777215#32, alu := s.L + s.R, aob := s.L + s.R, u := 0#8, w := 0#8,
      EDST := 3#2, LSA := s.FN ++ s.J, initMem := true, ROAR := 0x751 } := by
  rw [w10f]; simp

/-- Word 70a. -/
theorem w70a : ros 0x70a = {
      lu := 0, mv := 0, zp := 1856, zf := 4, zn := 4, tr := 11, ws := 4, sf := 7, iv := 0, al := 0, wm := 0, up := 2,
      md := 0, lb := 0, mb := 0, dg := 0, ul := 1, ur := 1, ce := 0, lx := 0, tc := 1, ry := 1, ad := 1, ab := 36,
      bb := 1, ss := 0 } := by
  decide +kernel

/-- `70a qj200-c1 E=0 R+0>R,AD |U:0 V:0 W:U>WL,U>WR>0 |LS:FN,J>LSA 7 |A:PROB B:1 Z:750 ` -/
theorem x70a (e : Env) (ex : Bool) (s : S) :
    exec e (ros 0x70a) ex s = .ok { s with
      SAR := s.R &&& 16777215#32, alu := s.R, aob := s.R, u := 0#8, w := 0#8, EDST := 3#2, LSA := s.FN ++ s.J,
      initMem := s.initMem || s.R &&& 16777215#32 &&& 7#32 == 0#32,
      ROAR := if s.R &&& 16777215#32 &&& 7#32 = 0#32 then 1872 ||| 2 * (s.AMWP &&& 1#4 != 0#4).toNat + 1 else 450 } := by
  rw [w70a]; simp

/-- Word 751. -/
theorem w751 : ros 0x751 = {
      lu := 0, mv := 0, zp := 1792, zf := 12, zn := 4, tr := 7, ws := 3, sf := 4, iv := 0, al := 30, wm := 0, up := 0,
      md := 0, lb := 1, mb := 0, dg := 0, ul := 1, ur := 1, ce := 7, lx := 0, tc := 1, ry := 0, ad := 1, ab := 0,
      bb := 1, ss := 56 } := by
  decide +kernel

/-- `751 qj200-e4 E=7 0+0>L AL:D |U:0 V:0 W:U>WL,U>WR>0 |LS:WS,E>LSA L>LS |CNTlb=0 |SS:T->PSW T(12-15) |A:0 B:1 Z:730 ` -/
theorem x751 (e : Env) (ex : Bool) (s : S) :
    exec e (ros 0x751) ex s = .ok { s with
      L := s.SDR, alu := 0#32, aob := s.SDR, u := 0#8, w := 0#8, AMWP := BitVec.setWidth 4 (s.SDR >>> 16), LB := 0#2,
      EDST := 3#2, LSA := 23#6, ROAR := 0x731, LS := lsPut s.LS (23#6) s.SDR,
      wait := BitVec.setWidth 4 (s.SDR >>> 16) &&& 2#4 != 0#4 } := by
  rw [w751]; simp

/-- Word 731. -/
theorem w731 : ros 0x731 = {
      lu := 7, mv := 0, zp := 1792, zf := 12, zn := 4, tr := 6, ws := 4, sf := 7, iv := 0, al := 0, wm := 5, up := 2,
      md := 0, lb := 0, mb := 0, dg := 0, ul := 1, ur := 1, ce := 3, lx := 6, tc := 1, ry := 1, ad := 1, ab := 1,
      bb := 1, ss := 4 } := by
  decide +kernel

/-- `731 qj200-e5 E=3 R+4>R,A |U:LLB>U V:0 W:U>WL,U>WR>W>PSW0 |LS:FN,J>LSA 7 |SS:E->SCHANCTL |A:1 B:1 Z:730 ` -/
theorem x731 (e : Env) (ex : Bool) (s : S) :
    exec e (ros 0x731) ex s = .ok { s with
      R := 4#32 + s.R, SAR := 4#32 + s.R &&& 16777215#32, alu := 4#32 + s.R, aob := 4#32 + s.R, u := byteOf s.L s.LB,
      w := byteOf s.L s.LB, MASK := byteOf s.L s.LB, EDST := 3#2, LSA := s.FN ++ s.J, initMem := true, ROAR := 0x733 } := by
  rw [w731]; simp

/-- Word 733. -/
theorem w733 : ros 0x733 = {
      lu := 0, mv := 0, zp := 1792, zf := 13, zn := 4, tr := 7, ws := 3, sf := 2, iv := 0, al := 30, wm := 0, up := 2,
      md := 0, lb := 0, mb := 0, dg := 0, ul := 1, ur := 1, ce := 7, lx := 0, tc := 1, ry := 0, ad := 1, ab := 0,
      bb := 1, ss := 0 } := by
  decide +kernel

/-- `733 qj200-e6 E=7 0+0>L AL:D |U:0 V:0 W:U>WL,U>WR>0 |LS:WS,E>LSA LS>R>LS |A:0 B:1 Z:734 ` -/
theorem x733 (e : Env) (ex : Bool) (s : S) :
    exec e (ros 0x733) ex s = .ok { s with
      R := s.LS 23#6, L := s.SDR, alu := 0#32, aob := s.SDR, u := 0#8, w := 0#8, EDST := 3#2, LSA := 23#6,
      ROAR := 0x735 } := by
  rw [w733]; simp

/-- Word 735. -/
theorem w735 : ros 0x735 = {
      lu := 7, mv := 0, zp := 448, zf := 1, zn := 4, tr := 28, ws := 4, sf := 7, iv := 0, al := 0, wm := 4, up := 2,
      md := 0, lb := 0, mb := 0, dg := 0, ul := 1, ur := 1, ce := 0, lx := 0, tc := 1, ry := 1, ad := 1, ab := 1,
      bb := 0, ss := 0 } := by
  decide +kernel

/-- `735 qj200-e7 E=0 R+0>M,SP |U:LLB>U V:0 W:U>WL,U>WR>W27>PSW4 |LS:FN,J>LSA 7 |A:1 B:0 Z:1c4 ` -/
theorem x735 (e : Env) (ex : Bool) (s : S) :
    exec e (ros 0x735) ex s = .ok { s with
      M := s.R, alu := s.R, aob := s.R, u := byteOf s.L s.LB, w := byteOf s.L s.LB,
      KEY := BitVec.setWidth 4 (s.R >>> 20), PMASK := BitVec.setWidth 4 (byteOf s.L s.LB), EDST := 3#2,
      CC := BitVec.setWidth 2 (byteOf s.L s.LB >>> 4), LSA := s.FN ++ s.J, ROAR := 0x1c6, timUp := s.timUp && !s.load,
      timIrq := s.timIrq && !s.load, load := false } := by
  rw [w735]; simp

/-- Word 183. -/
theorem w183 : ros 0x183 = {
      lu := 0, mv := 0, zp := 384, zf := 5, zn := 4, tr := 0, ws := 4, sf := 7, iv := 0, al := 0, wm := 15, up := 2,
      md := 0, lb := 0, mb := 0, dg := 0, ul := 1, ur := 0, ce := 2, lx := 0, tc := 1, ry := 0, ad := 1, ab := 0,
      bb := 1, ss := 0 } := by
  decide +kernel

/-- `183 qa800-l2 E=2 0+0>T |U:0 V:0 W:U>WL,E>WR>W>MD,F |LS:FN,J>LSA 7 |A:0 B:1 Z:194 ` -/
theorem x183 (e : Env) (ex : Bool) (s : S) :
    exec e (ros 0x183) ex s = .ok { s with
      alu := 0#32, aob := 0#32, u := 0#8, w := 2#8, F := 2#8, MD := 0#4, EDST := 3#2, LSA := s.FN ++ s.J,
      ROAR := 0x195 } := by
  rw [w183]; simp

/-- Word 895. -/
theorem w895 : ros 0x895 = {
      lu := 0, mv := 0, zp := 384, zf := 5, zn := 4, tr := 0, ws := 4, sf := 7, iv := 0, al := 0, wm := 15, up := 2,
      md := 0, lb := 0, mb := 0, dg := 0, ul := 1, ur := 0, ce := 6, lx := 0, tc := 1, ry := 0, ad := 1, ab := 0,
      bb := 1, ss := 0 } := by
  decide +kernel

/-- `895 qj140-q3 E=6 0+0>T |U:0 V:0 W:U>WL,E>WR>W>MD,F |LS:FN,J>LSA 7 |A:0 B:1 Z:194 ` -/
theorem x895 (e : Env) (ex : Bool) (s : S) :
    exec e (ros 0x895) ex s = .ok { s with
      alu := 0#32, aob := 0#32, u := 0#8, w := 6#8, F := 6#8, MD := 0#4, EDST := 3#2, LSA := s.FN ++ s.J,
      ROAR := 0x195 } := by
  rw [w895]; simp

end Verif.Cpu50
