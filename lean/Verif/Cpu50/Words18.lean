import Verif.Cpu50.Words9

/-!
# Model 2050: words of STE

Written by a script from the model itself; each lemma is the effect of one word of `/repo/src/model2050/ros.txt`
on the processor, with the text of the word as the listing names its fields.
-/

namespace Verif.Cpu50

attribute [local simp] exec needsChan front condA condB combine abBits nextBase leftBus leftIn rightBus rightIn uBus vBus ceB moverL moverR adCin ivStep smif dgStep cinW adder adStep lateB alStep ssEarly trStep protect ssLate wsStep wmStep upStep finish Out.bind ceBit fpStats Nat.testBit_eq_decide_div_mod_eq mov_whole

/-- Word 302. -/
theorem w302 : ros 0x302 = {
      lu := 0, mv := 0, zp := 832, zf := 3, zn := 6, tr := 4, ws := 4, sf := 7, iv := 0, al := 0, wm := 0, up := 2,
      md := 0, lb := 0, mb := 0, dg := 0, ul := 1, ur := 1, ce := 2, lx := 0, tc := 1, ry := 1, ad := 1, ab := 5,
      bb := 0, ss := 10 } := by
  decide +kernel

/-- `302 qg300-g2 E=2 R+0>D |U:0 V:0 W:U>WL,U>WR>0 |LS:FN,J>LSA 7 |SS:S03|E |A:S3 B:0 Z:34c B|(A=0)>B` -/
theorem x302_k (e : Env) (ex : Bool) (s : S) (hk : Permit s) :
    exec e (ros 0x302) ex s = .ok { s with
      SDR := s.R, alu := s.R, aob := s.R, u := 0#8, w := 0#8, EDST := 3#2, LSA := s.FN ++ s.J,
      St := { s.St with s2 := true }, updD := true, ROAR := 844 ||| 2 * s.St.s3.toNat + (!s.St.s3).toNat } := by
  rw [w302]
  rcases hk with hk | ⟨h1, h2⟩
  · simp [hk]
  · simp only [keyIx, BitVec.toNat_ushiftRight] at h1 h2
    by_cases hk : s.KEY = 0#4 <;> simp [keyIx, hk, h1, h2]

theorem x302_p (e : Env) (ex : Bool) (s : S) (hk : Denied s) :
    exec e (ros 0x302) ex s = .ok { s with
      alu := s.R, aob := s.R, u := 0#8, w := 0#8, EDST := 3#2, LSA := s.FN ++ s.J,
      St := { s.St with s2 := true }, ROAR := 0x142 } := by
  rw [w302]
  obtain ⟨h0, h1, h2⟩ := hk
  simp only [keyIx, BitVec.toNat_ushiftRight] at h1 h2
  simp [keyIx, h0, h1, h2]

end Verif.Cpu50
