import Verif.Cpu50.Words11

/-!
# Model 2050: words of TEST AND SET

Written by a script from the model itself; each lemma is the effect of one word of `/repo/src/model2050/ros.txt`
on the processor, with the text of the word as the listing names its fields.
-/

namespace Verif.Cpu50

attribute [local simp] exec needsChan front condA condB combine abBits nextBase leftBus leftIn rightBus rightIn uBus vBus ceB moverL moverR adCin ivStep smif dgStep cinW adder adStep lateB alStep ssEarly trStep protect ssLate wsStep wmStep upStep finish Out.bind ceBit fpStats Nat.testBit_eq_decide_div_mod_eq mov_whole

/-- Word 90e. -/
theorem w90e : ros 0x90e = {
      lu := 2, mv := 0, zp := 2304, zf := 1, zn := 4, tr := 15, ws := 4, sf := 7, iv := 0, al := 0, wm := 2, up := 2,
      md := 0, lb := 0, mb := 0, dg := 0, ul := 1, ur := 1, ce := 0, lx := 0, tc := 1, ry := 1, ad := 1, ab := 0,
      bb := 0, ss := 19 } := by
  decide +kernel

/-- `90e qk300-j2 E=0 R+0>A |U:R3>U V:0 W:U>WL,U>WR>W67>MB |LS:FN,J>LSA 7 |SS:E->BS |A:0 B:0 Z:904 ` -/
theorem x90e (e : Env) (ex : Bool) (s : S) :
    exec e (ros 0x90e) ex s = .ok { s with
      SAR := s.R &&& 16777215#32, alu := s.R, aob := s.R, u := BitVec.setWidth 8 s.R, w := BitVec.setWidth 8 s.R,
      BS := 0#4, MB := BitVec.setWidth 2 s.R, EDST := 3#2, LSA := s.FN ++ s.J, initMem := true, ROAR := 0x904 } := by
  rw [w90e]; simp

/-- Word 904. -/
theorem w904 : ros 0x904 = {
      lu := 0, mv := 0, zp := 2304, zf := 1, zn := 4, tr := 0, ws := 4, sf := 7, iv := 0, al := 0, wm := 0, up := 2,
      md := 0, lb := 0, mb := 0, dg := 0, ul := 1, ur := 1, ce := 0, lx := 0, tc := 1, ry := 0, ad := 1, ab := 0,
      bb := 1, ss := 20 } := by
  decide +kernel

/-- `904 qk300-j2 E=0 0+0>T |U:0 V:0 W:U>WL,U>WR>0 |LS:FN,J>LSA 7 |SS:1->BS*MB |A:0 B:1 Z:904 ` -/
theorem x904 (e : Env) (ex : Bool) (s : S) :
    exec e (ros 0x904) ex s = .ok { s with
      alu := 0#32, aob := 0#32, u := 0#8, w := 0#8, BS := s.BS ||| 8#4 >>> s.MB.toNat, EDST := 3#2, LSA := s.FN ++ s.J,
      ROAR := 0x905 } := by
  rw [w904]; simp

/-- Word 905. -/
theorem w905 : ros 0x905 = {
      lu := 0, mv := 0, zp := 2304, zf := 1, zn := 4, tr := 29, ws := 4, sf := 7, iv := 0, al := 0, wm := 0, up := 2,
      md := 0, lb := 0, mb := 0, dg := 0, ul := 1, ur := 1, ce := 0, lx := 0, tc := 0, ry := 0, ad := 1, ab := 1,
      bb := 1, ss := 3 } := by
  decide +kernel

/-- `905 qk300-j3 E=0 0-0>D*BS |U:0 V:0 W:U>WL,U>WR>0 |LS:FN,J>LSA 7 |SS:D->CR*BS |A:1 B:1 Z:904 ` -/
theorem x905_k (e : Env) (ex : Bool) (s : S) (hk : Permit s) :
    exec e (ros 0x905) ex s = .ok { s with
      SDR := s.SDR &&& ~~~bsMask s.BS ||| 4294967295#32 &&& bsMask s.BS,
      alu := 4294967295#32, aob := 4294967295#32, u := 0#8, w := 0#8,
      CC := if s.SDR &&& bsMask s.BS &&& 2155905152#32 = 0#32 then 0#2 else 1#2,
      EDST := 3#2, LSA := s.FN ++ s.J, updD := true, ROAR := 0x907 } := by
  rw [w905]
  rcases hk with hk | ⟨h1, h2⟩
  · simp [hk]
  · simp only [keyIx, BitVec.toNat_ushiftRight] at h1 h2
    by_cases hk : s.KEY = 0#4 <;> simp [keyIx, hk, h1, h2]

theorem x905_p (e : Env) (ex : Bool) (s : S) (hk : Denied s) :
    exec e (ros 0x905) ex s = .ok { s with
      alu := 4294967295#32, aob := 4294967295#32, u := 0#8, w := 0#8,
      CC := if s.SDR &&& bsMask s.BS &&& 2155905152#32 = 0#32 then 0#2 else 1#2,
      EDST := 3#2, LSA := s.FN ++ s.J, ROAR := 0x142 } := by
  rw [w905]
  obtain ⟨h0, h1, h2⟩ := hk
  simp only [keyIx, BitVec.toNat_ushiftRight] at h1 h2
  simp [keyIx, h0, h1, h2]

/-- Word 907. -/
theorem w907 : ros 0x907 = {
      lu := 0, mv := 0, zp := 384, zf := 5, zn := 4, tr := 0, ws := 4, sf := 7, iv := 0, al := 0, wm := 0, up := 2,
      md := 0, lb := 0, mb := 0, dg := 0, ul := 1, ur := 1, ce := 0, lx := 0, tc := 1, ry := 0, ad := 1, ab := 1,
      bb := 1, ss := 0 } := by
  decide +kernel

/-- `907 qk300-j4 E=0 0+0>T |U:0 V:0 W:U>WL,U>WR>0 |LS:FN,J>LSA 7 |A:1 B:1 Z:194 ` -/
theorem x907 (e : Env) (ex : Bool) (s : S) :
    exec e (ros 0x907) ex s = .ok { s with
      alu := 0#32, aob := 0#32, u := 0#8, w := 0#8, EDST := 3#2, LSA := s.FN ++ s.J, ROAR := 0x197 } := by
  rw [w907]; simp

end Verif.Cpu50
