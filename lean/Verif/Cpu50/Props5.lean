import Verif.Cpu50.Ssk

/-!
# Model 2050: storage keys and references out of bounds

C137: SET STORAGE KEY and INSERT STORAGE KEY do what they should while the address is in storage,
and leave the array of keys when the address is 512K or more.
C138: the simulator leaves neither main storage, nor the bump storage, nor the array of keys, nor
local storage: from any state between two instructions, whatever the program and the operands are,
as long as no such instruction and no operation of the operator's panel comes.
-/

namespace Verif.Cpu50
open Verif.S360
attribute [local irreducible] ros

/-- C137. SET STORAGE KEY in the supervisor state, the address a multiple of 16 and in storage: the
key of the addressed block of 2048 bytes becomes bits 24-27 of the first register; no other key and
nothing else is changed. -/
theorem C137_set_key_partial {e : Env} {tk : Bool} {a : Arch} {s : S} (ho : EnvOk e)
    (h : Ready e tk a s) (hia : InStore e a) (hop : opOf a.inst = 0x08#8) (hsv : a.problem = false)
    (hal : blockAddr a a.inst % 16 = 0) (hst : blockAddr a a.inst + 12 < 4 * words e)
    (hi : InStore e { a with ia := a.ia + 2 }) (tick : Nat → Bool)
    (ht : ∀ i, tick i = true → tk = true) :
    ∃ n s', run e tick n s = .ok s' ∧
      (Ready e tk (setKey { a with ia := a.ia + 2 } a.inst) s' ∨
       Pend e tk (setKey { a with ia := a.ia + 2 } a.inst) s') :=
  (ssk_exec ho h hia (by rw [hop]; rfl) hsv hal hst hi).run tick ht

/-- C137. The address is not a multiple of 16: a specification interruption, and no key changes. -/
theorem C137_specification {e : Env} {tk : Bool} {a b : Arch} {s : S} (ho : EnvOk e)
    (h : Ready e tk a s) (hia : InStore e a) (hop : opOf a.inst = 0x08#8) (hsv : a.problem = false)
    (hal : blockAddr a a.inst % 16 ≠ 0) (hk : a.Kept) (hm : 112 ≤ 4 * words e)
    (hb : b = interrupt { a with ia := a.ia + 2 } 0x28 6 1) (hw : tk = false → Quiet a b)
    (hi : InStore e b) (tick : Nat → Bool) (ht : ∀ i, tick i = true → tk = true) :
    ∃ n s', run e tick n s = .ok s' ∧ (Ready e tk b s' ∨ Pend e tk b s') :=
  (ssk_spec ho h hia (by rw [hop]; rfl) hsv hal hk hm
    (by rw [next2 (by rw [hop]; decide)]; exact hb) hw hi).run tick ht

/-- C137. INSERT STORAGE KEY in the supervisor state, the address a multiple of 16 and in storage:
the key of the block comes to bits 24-27 of the first register, bits 28-31 become zero, and nothing
else is changed. The storage keys are of four bits. -/
theorem C137_insert_key_partial {e : Env} {tk : Bool} {a : Arch} {s : S} (ho : EnvOk e)
    (h : Ready e tk a s) (hia : InStore e a) (hop : opOf a.inst = 0x09#8) (hsv : a.problem = false)
    (hal : blockAddr a a.inst % 16 = 0) (hst : blockAddr a a.inst < 4 * words e)
    (hkey : (a.keys (blockAddr a a.inst / 2048)).toNat < 16)
    (hi : InStore e { a with ia := a.ia + 2 }) (tick : Nat → Bool)
    (ht : ∀ i, tick i = true → tk = true) :
    ∃ n s', run e tick n s = .ok s' ∧
      (Ready e tk (insertKey { a with ia := a.ia + 2 } a.inst) s' ∨
       Pend e tk (insertKey { a with ia := a.ia + 2 } a.inst) s') :=
  (isk_exec ho h hia (by rw [hop]; rfl) hsv hal hst hkey hi).run tick ht

theorem run_add {e : Env} : ∀ (n m : Nat) (tick : Nat → Bool) (s : S),
    run e tick (n + m) s = (run e tick n s).bind fun s1 => run e (fun i => tick (n + i)) m s1
  | 0, m, tick, s => by
    show run e tick (0 + m) s = run e (fun i => tick (0 + i)) m s
    simp only [Nat.zero_add]
  | n + 1, m, tick, s => by
    rw [show n + 1 + m = n + m + 1 by omega]
    show (cycle e (tick 0) s).bind _ = ((cycle e (tick 0) s).bind _).bind _
    cases cycle e (tick 0) s with
    | ok s1 =>
      show run e (fun i => tick (i + 1)) (n + m) s1 = (run e (fun i => tick (i + 1)) n s1).bind _
      rw [run_add n m]
      congr 1
      funext s2
      congr 1
      funext i
      rw [show n + i + 1 = n + 1 + i by omega]
    | oob => rfl
    | chan => rfl

/-- C137 violated. The processor of the model has 256 storage keys, for 512K bytes; the address is
not compared with the size of storage before the key is used. Either instruction with an address of
512K or more, which should be interrupted for addressing, makes the simulator write or read past
the end of the array. -/
theorem C137_violated_out_of_bounds {e : Env} {tk : Bool} {a : Arch} {s : S} (ho : EnvOk e)
    (h : Ready e tk a s) (hia : InStore e a) (hsv : a.problem = false)
    (hop : opOf a.inst = 0x08#8 ∧ blockAddr a a.inst % 16 = 0 ∨ opOf a.inst = 0x09#8)
    (hbig : 0x80000 ≤ blockAddr a a.inst) (tick : Nat → Bool)
    (ht : ∀ i, tick i = true → tk = true) : ∃ n, run e tick n s = .oob := by
  have h1 : Ev e tk (fun s1 => ∀ t, cycle e t s1 = .oob) s := by
    rcases hop with ⟨h1, h2⟩ | h1
    · exact ssk_oob ho h hia (by rw [h1]; rfl) hsv h2 hbig
    · exact isk_oob ho h hia (by rw [h1]; rfl) hsv hbig
  obtain ⟨n, s1, h2, h3⟩ := h1.run tick ht
  refine ⟨n + 1, ?_⟩
  rw [run_add, h2]
  show (cycle e (tick (n + 0)) s1).bind _ = _
  rw [h3]; rfl

/-! ### C138 -/

theorem ready_safe {e : Env} {tk : Bool} {a : Arch} {s : S} (h : Ready e tk a s) : Safe e s := by
  have q := ready_asks h
  refine ⟨?_, ?_, ?_, ?_, ?_, prob_every (ready_prob h).1⟩
  · rw [q.ms]; exact fun h => nomatch h
  · rw [q.ms]; rintro (h | h | h) <;> cases h
  · intro h1
    exact .inr (q.st h1).2.1
  · intro h1; rw [q.ib] at h1; cases h1
  · intro h1; rw [q.im] at h1; cases h1

/-- C138. From any state between two instructions, whatever the program, the operands, the contents
of storage and the ticks of the timer are: the simulator reads and writes nothing outside of main
storage, of the bump storage, of the storage keys and of local storage. Left out are the words which
use a storage key of SSK and ISK (see C137) and the two words of the panel's store and display, and
one word of the end of floating-point instructions with an operand whose condition would be 3. -/
theorem C138_in_bounds_partial {e : Env} {tk : Bool} {a : Arch} {s : S} (ho : EnvOk e)
    (h : Ready e tk a s) (tick : Nat → Bool) (n : Nat)
    (hm : ∀ k < n, ∀ s1, run e tick k s = .ok s1 →
      s1.ROAR ∉ [0x180, 0x1c9, 0x1bc, 0x20e, 0x2be, 0x2bf, 0x237] ∧
      (s1.ROAR = 0x327 → s1.w &&& 3 ≠ 3)) :
    run e tick n s ≠ .oob := by
  refine (safe_run ho n tick s (ready_safe h) fun k hk s1 h1 => ⟨?_, (hm k hk s1 h1).2⟩).1
  have h2 := (hm k hk s1 h1).1
  unfold rash
  cases h3 : List.contains [0x180, 0x1c9, 0x1bc, 0x20e, 0x2be, 0x2bf, 0x237] s1.ROAR with
  | false => rfl
  | true => exact absurd (List.contains_iff_mem.1 h3) h2

theorem prob_rash {n : Nat} (h : prob n = true) : rash n = false := by
  have key : ∀ n ∈ [0x180, 0x1c9, 0x1bc, 0x20e, 0x2be, 0x2bf, 0x237], prob n = false := by
    decide +kernel
  cases h3 : rash n with
  | false => rfl
  | true => rw [key n (List.contains_iff_mem.1 h3)] at h; cases h

/-- C138 for a program in the problem state: up to the next interruption the simulator neither
leaves its arrays nor comes to a channel, so that each cycle gives a next state. -/
theorem C138_problem_program_partial {e : Env} {tk : Bool} {a : Arch} {s : S} (ho : EnvOk e)
    (h : Ready e tk a s) (hp : a.amwp &&& 1 ≠ 0) (tick : Nat → Bool) (n : Nat)
    (hg : ∀ k < n, ∀ s1, run e tick k s = .ok s1 →
      s1.ROAR ∉ [0x147, 0x14b, 0x191, 0x19c] ∧ (s1.ROAR = 0x327 → s1.w &&& 3 ≠ 3)) :
    ∃ s', run e tick n s = .ok s' := by
  have hp' : s.AMWP &&& 1 ≠ 0 := by
    rw [show s.AMWP = a.amwp from congrArg Arch.amwp (Bd.visible (.inl h))]; exact hp
  have hgate : ∀ k < n, ∀ s1, run e tick k s = .ok s1 → gate s1.ROAR = false := by
    intro k hk s1 h1
    have h2 := (hg k hk s1 h1).1
    simp only [List.mem_cons, List.not_mem_nil, or_false, not_or] at h2
    unfold gate
    simp only [Bool.or_eq_false_iff, beq_eq_false_iff_ne]
    exact ⟨⟨⟨h2.1, h2.2.1⟩, h2.2.2.1⟩, h2.2.2.2⟩
  obtain ⟨k1, -⟩ := prob_run ho n tick s (ready_prob h).1 hp' hgate
  have k3 := (safe_run ho n tick s (ready_safe h) fun k hk s1 h1 =>
    ⟨prob_rash ((prob_run ho k tick s (ready_prob h).1 hp' fun j hj =>
      hgate j (Nat.lt_trans hj hk)).2 s1 h1).1, (hg k hk s1 h1).2⟩).1
  cases hr : run e tick n s with
  | ok s' => exact ⟨s', rfl⟩
  | oob => exact absurd hr k3
  | chan => exact absurd hr k1

/-! ### Examples -/

/-- The instruction at 100 is `i`, register 1 has 90, register 2 the address `x`, register 3 has
ones; block 1 has key 6. All hexadecimal. -/
def startK (i x : W) : S :=
  { start (fun n => if n = 0x40 then i else 0) 0 (fun b => if b = 1 then 6 else 0) with
    LS := fun n => if n = 0x31 then 0x90 else if n = 0x32 then x else
      if n = 0x33 then 0xffffffff else 0 }

theorem startK_ready (tk : Bool) (i x : W) : Ready e64 tk (archOf (startK i x)) (startK i x) := by
  refine .even ⟨rfl, rfl, rfl, ?_, (fun h => nomatch h), fun _ => by simp [exc, start, startK]⟩ ?_
    (.inl rfl) rfl ?_ ?_
  · show (0x100#32).toNat ≤ _
    decide
  · show (0#8).toNat < 16
    decide
  · show (0x100#32).toNat % 4 = 0
    decide
  · show (0x100#32).toNat / 4 = (0x100#32).toNat / 4
    rfl

theorem startK_in (i x : W) : InStore e64 (archOf (startK i x)) ∧
    InStore e64 { archOf (startK i x) with ia := (archOf (startK i x)).ia + 2 } := by
  refine ⟨⟨?_, ?_⟩, ⟨?_, ?_⟩⟩
  · show (0x100#32).toNat % 2 = 0
    decide
  · show (0x100#32).toNat + 8 ≤ 4 * words e64
    decide
  · show (0x100#32 + 2).toNat % 2 = 0
    decide
  · show (0x100#32 + 2).toNat + 8 ≤ 4 * words e64
    decide

/-- Not vacuous (C137): SSK 1,2 changes the key of block 1 from 6 to 9. -/
theorem C137_example_set : ∃ n s', run e64 (fun _ => false) n (startK 0x08120000 0x800) = .ok s' ∧
    s'.MP 1 = 9 ∧ s'.MP 2 = 0 := by
  obtain ⟨n, s', h1, h2⟩ := C137_set_key_partial (tk := false) e64_ok
    (startK_ready false 0x08120000 0x800) (startK_in _ _).1 (by decide) (by decide) (by decide)
    (by decide) (startK_in _ _).2 (fun _ => false) (fun _ h => h)
  have h3 := Bd.visible h2
  refine ⟨n, s', h1, ?_, ?_⟩
  · rw [show s'.MP = _ from congrArg Arch.keys h3]; decide
  · rw [show s'.MP = _ from congrArg Arch.keys h3]; decide

/-- Not vacuous (C137): ISK 3,2 brings the key 6 into register 3. -/
theorem C137_example_insert : ∃ n s', run e64 (fun _ => false) n (startK 0x09320000 0x800) = .ok s' ∧
    (archOf s').gr 3 = 0xffffff60 ∧ (archOf s').gr 2 = 0x800 := by
  obtain ⟨n, s', h1, h2⟩ := C137_insert_key_partial (tk := false) e64_ok
    (startK_ready false 0x09320000 0x800) (startK_in _ _).1 (by decide) (by decide) (by decide)
    (by decide) (by decide) (startK_in _ _).2 (fun _ => false) (fun _ h => h)
  have h3 := Bd.visible h2
  have h4 := congrArg Arch.gr h3
  refine ⟨n, s', h1, ?_, ?_⟩
  · exact (congrFun h4 3).trans (by decide)
  · exact (congrFun h4 2).trans (by decide)

/-- Not vacuous (C137, specification): SSK 1,2 with address 808. -/
theorem C137_example_specification : ∃ n s',
    run e64 (fun _ => false) n (startK 0x08120000 0x808) = .ok s' ∧ s'.MP 1 = 6 ∧
      s'.mem 0xa = 0x00000006 ∧ s'.mem 0xb = 0x40000102 := by
  obtain ⟨n, s', h1, h2⟩ := C137_specification (tk := false) e64_ok
    (startK_ready false 0x08120000 0x808) (startK_in _ _).1 (by decide) (by decide) (by decide)
    (by unfold Arch.Kept; decide) (by decide) rfl (fun _ => by unfold Quiet; decide)
    ⟨by decide, by decide⟩
    (fun _ => false) (fun _ h => h)
  have h3 := Bd.visible h2
  refine ⟨n, s', h1, ?_, ?_, ?_⟩
  · rw [show s'.MP = _ from congrArg Arch.keys h3]; decide
  · rw [show s'.mem = _ from congrArg Arch.mem h3]; decide
  · rw [show s'.mem = _ from congrArg Arch.mem h3]; decide

/-- C137 violated, a concrete machine of 64K: SSK 1,2 with the address 80000. -/
theorem C137_violated_example : (∃ n, run e64 (fun _ => false) n (startK 0x08120000 0x80000) = .oob) ∧
    ∃ n, run e64 (fun _ => false) n (startK 0x09320000 0x80008) = .oob :=
  ⟨C137_violated_out_of_bounds (tk := false) e64_ok (startK_ready false _ _) (startK_in _ _).1
      (by decide) (.inl ⟨by decide, by decide⟩) (by decide) _ (fun _ h => h),
   C137_violated_out_of_bounds (tk := false) e64_ok (startK_ready false _ _) (startK_in _ _).1
      (by decide) (.inr (by decide)) (by decide) _ (fun _ h => h)⟩

/-- A check of the hypothesis of C138 along a run. -/
def calmRun (e : Env) : Nat → S → Bool
  | 0, _ => true
  | n + 1, s => !([0x180, 0x1c9, 0x1bc, 0x20e, 0x2be, 0x2bf, 0x237].contains s.ROAR) &&
      !(s.ROAR == 0x327 && s.w &&& 3 == 3) &&
      match cycle e false s with
      | .ok s1 => calmRun e n s1
      | _ => true

theorem calmRun_spec {e : Env} : ∀ (n : Nat) (s : S), calmRun e n s = true →
    ∀ k < n, ∀ s1, run e (fun _ => false) k s = .ok s1 →
      s1.ROAR ∉ [0x180, 0x1c9, 0x1bc, 0x20e, 0x2be, 0x2bf, 0x237] ∧
      (s1.ROAR = 0x327 → s1.w &&& 3 ≠ 3)
  | 0, _, _, k, hk, _, _ => absurd hk (Nat.not_lt_zero k)
  | n + 1, s, h, k, hk, s1, hr => by
    have h' : (!([0x180, 0x1c9, 0x1bc, 0x20e, 0x2be, 0x2bf, 0x237].contains s.ROAR) &&
      !(s.ROAR == 0x327 && s.w &&& 3 == 3) &&
      match cycle e false s with
      | .ok s1 => calmRun e n s1
      | _ => true) = true := h
    rw [Bool.and_eq_true, Bool.and_eq_true] at h'
    obtain ⟨⟨h1, h2⟩, h3⟩ := h'
    cases k with
    | zero =>
      have h4 : s = s1 := by cases hr; rfl
      subst h4
      refine ⟨fun hm => ?_, fun hr2 hw => ?_⟩
      · rw [List.contains_iff_mem.2 hm] at h1; cases h1
      · rw [hr2, hw] at h2; cases h2
    | succ k =>
      have h5 : (cycle e false s).bind (fun s2 => run e (fun _ => false) k s2) = .ok s1 := hr
      cases hc : cycle e false s with
      | ok s2 =>
        rw [hc] at h3 h5
        exact calmRun_spec n s2 h3 k (by omega) s1 h5
      | oob => rw [hc] at h5; cases h5
      | chan => rw [hc] at h5; cases h5

/-- Not vacuous (C138): the program of C134, through the interruption at its end. -/
theorem C138_example : calmRun e64 120 startT = true ∧ run e64 (fun _ => false) 120 startT ≠ .oob := by
  have h : calmRun e64 120 startT = true := by decide +kernel
  exact ⟨h, C138_in_bounds_partial e64_ok (startT_ready false) _ 120 (calmRun_spec 120 _ h)⟩

/-- Not vacuous (C138 for problem programs): the same program up to the interruption. -/
theorem C138_example_problem : ∃ s', run e64 (fun _ => false) 60 startT = .ok s' :=
  C138_problem_program_partial e64_ok (startT_ready false) (by decide) _ 60 fun k hk s1 h1 => by
    refine ⟨?_, (calmRun_spec 120 _ C138_example.1 k (by omega) s1 h1).2⟩
    have h2 := noGate_spec 60 _ thief_runs.1 k hk s1 h1
    intro hm
    have key : ∀ n ∈ [0x147, 0x14b, 0x191, 0x19c], gate n = true := by decide
    rw [key _ hm] at h2; cases h2

end Verif.Cpu50
