import Verif.Cpu50.Mem

/-!
# Model 2050: where the microprogram can go

For every word of control storage the list of the addresses which may follow it, whatever the
registers hold; from this two sets of addresses which the processor does not leave: in the problem
state up to an interruption, and in any state.
-/

namespace Verif.Cpu50

/-! ### Candidates for the next address -/

/-- Both bits may be anything, the first one, none. -/
def anyA : List (Bool × Bool) := [(false, false), (true, false)]

/-- Values branch condition A can have; `p` says whether the processor is in the problem state. -/
def optA (p : Bool) (w : Word) : List (Bool × Bool) :=
  if w.ab = 0 ∨ w.ab = 11 ∨ w.ab = 15 ∨ w.ab = 38 ∨ w.ab = 40 ∨ w.ab = 41 ∨ w.ab = 42 ∨ w.ab = 44 ∨
    w.ab = 46 ∨ w.ab = 47 ∨ w.ab = 48 ∨ w.ab = 55 ∨ w.ab = 59 ∨ w.ab = 60 ∨ w.ab = 62 then
    [(false, false)]
  else if w.ab = 1 then [(true, false)]
  else if w.ab = 36 then [(p, false)]
  else if w.ab = 35 ∨ w.ab = 49 ∨ w.ab = 56 ∨ w.ab = 58 then
    [(false, false), (true, false), (false, true), (true, true)]
  else anyA

/-- Values branch condition B can have. -/
def optB (w : Word) (b : Bool) : List Bool :=
  if w.bb = 0 ∨ w.bb = 30 ∨ w.bb = 31 then [b]
  else if w.bb = 1 then [true]
  else if w.bb = 19 ∨ w.bb = 28 then [false, true]
  else [b, true]

/-- Base addresses. -/
def optBase (w : Word) : List Nat :=
  if w.zn = 0 then
    if w.zf = 6 ∨ w.zf = 8 ∨ w.zf = 10 ∨ w.zf = 12 then
      (List.range 16).map (fun k => w.zp ||| k <<< 2)
    else [w.zp]
  else [w.zp ||| w.zf <<< 2]

/-- Base addresses with values of condition A: when the operation code is decoded, condition A
is that the code is one of an RX instruction, 4 to 7. -/
def optBA (p : Bool) (w : Word) : List (Nat × Bool × Bool) :=
  if w.zn = 0 ∧ w.zf = 6 ∧ w.ab = 63 then
    (List.range 16).map (fun k => (w.zp ||| k <<< 2, false, false)) ++
      [4, 5, 6, 7].map (fun k => (w.zp ||| k <<< 2, true, false))
  else (optBase w).flatMap fun n => (optA p w).map fun q => (n, q)

/-- Next address and the two bits after the branch conditions. -/
def optF (p : Bool) (w : Word) : List (Nat × Bool × Bool) :=
  (optBA p w).flatMap fun q => (optB w q.2.2).map fun b =>
    (q.1 ||| abBits (combine w.zn q.2.1 b), combine w.zn q.2.1 b)

/-- ... after a data check. -/
def optI (p : Bool) (w : Word) : List (Nat × Bool × Bool) :=
  if w.iv = 1 ∨ w.iv = 2 ∨ w.iv = 3 then
    optF p w ++ (optF p w).map fun q => (0x140, q.2)
  else optF p w

/-- ... after the adder's own branch. -/
def optL (p : Bool) (w : Word) : List Nat :=
  if w.bb = 30 ∨ w.bb = 31 then
    (optI p w).map (fun q => q.1 / 4 * 4 ||| abBits (combine w.zn q.2.1 q.2.2)) ++
      (optI p w).map (fun q => q.1 / 4 * 4 ||| abBits (combine w.zn q.2.1 true))
  else (optI p w).map fun q => q.1

/-- Addresses forced by a violation of protection, boundary or sign code. -/
def forced (w : Word) : List Nat :=
  (if w.tr = 4 ∨ w.tr = 13 ∨ w.tr = 17 ∨ w.tr = 29 then [0x142] else []) ++
  ((if w.tr = 10 ∨ w.tr = 11 then [0x1c2] else []) ++
   (if w.ss = 5 ∨ w.ss = 6 then [0x140] else []))

/-- All addresses which may follow the word. -/
def nexts (p : Bool) (w : Word) : List Nat := optL p w ++ forced w

/-! ### They are all -/

theorem condA_opt (e : Env) (w : Word) (ex : Bool) (s : S) :
    condA e w ex s ∈ optA (s.AMWP &&& 1 != 0) w := by
  have one : ∀ c : Bool, (c, false) ∈ anyA := by decide
  have two : ∀ c : Bool × Bool, c ∈ [(false, false), (true, false), (false, true), (true, true)] := by
    rintro ⟨a, b⟩; cases a <;> cases b <;> decide
  unfold condA
  split <;> rename_i h <;> unfold optA <;>
    first
    | (rw [h]; exact one _)
    | (rw [h]; exact List.mem_singleton.2 rfl)
    | (rw [h]; exact two _)
    | skip
  repeat' split
  all_goals first
    | exact List.mem_singleton.2 rfl
    | exact one _
    | exact two _
    | contradiction

theorem condB_opt (e : Env) (w : Word) (ex : Bool) (s : S) (b : Bool) :
    condB e w ex s b ∈ optB w b := by
  have h1 : ∀ c : Bool, c ∈ [false, true] := by decide
  have h2 : ∀ b c : Bool, (b || c) ∈ [b, true] := by decide
  have h3 : ∀ b c d : Bool, (b || c || d) ∈ [b, true] := by decide
  have h4 : ∀ b : Bool, b ∈ [b, true] := by decide
  unfold condB
  split <;> rename_i h <;> unfold optB <;>
    first
    | (rw [h]; exact h1 _)
    | (rw [h]; exact h2 _ _)
    | (rw [h]; exact h3 _ _ _)
    | (rw [h]; exact List.mem_singleton.2 rfl)
    | skip
  repeat' split
  all_goals first
    | exact List.mem_singleton.2 rfl
    | exact h4 _
    | simp_all

theorem nib_lt (x : W) (i : Nat) : nib x i < 16 := Nat.mod_lt _ (by decide)

theorem base_opt (w : Word) (s : S) : nextBase w s ∈ optBase w := by
  have h16 : ∀ k, k < 16 → w.zp ||| k <<< 2 ∈ (List.range 16).map (fun k => w.zp ||| k <<< 2) :=
    fun k hk => List.mem_map.2 ⟨k, List.mem_range.2 hk, rfl⟩
  unfold nextBase
  split
  · rename_i h; unfold optBase; rw [if_pos h]
    by_cases hz : w.zf = 6 ∨ w.zf = 8 ∨ w.zf = 10 ∨ w.zf = 12
    · rw [if_pos hz]
      rcases hz with h2 | h2 | h2 | h2 <;> rw [h2]
      · exact h16 _ (nib_lt _ _)
      · exact h16 _ (nib_lt _ _)
      · exact h16 _ (Nat.mod_lt _ (by decide))
      · exact h16 _ (show s.ED.toNat < 2 ^ 4 from s.ED.isLt)
    · rw [if_neg hz]
      split <;> rename_i h2
      · exact absurd (.inl h2) hz
      · exact absurd (.inr (.inl h2)) hz
      · exact absurd (.inr (.inr (.inl h2))) hz
      · exact absurd (.inr (.inr (.inr h2))) hz
      · exact List.mem_singleton.2 rfl
  · rename_i h; unfold optBase; rw [if_neg (by intro h2; exact h h2)]; exact List.mem_singleton.2 rfl

theorem rx_nib (m : W) (h : (m &&& 0xc0000000#32 == 0x40000000#32) = true) :
    nib m 7 ∈ [4, 5, 6, 7] := by
  have h1 : (m &&& 0xc0000000#32).extractLsb' 30 2 = (0x40000000#32).extractLsb' 30 2 :=
    congrArg _ (eq_of_beq h)
  rw [BitVec.extractLsb'_and, show (0xc0000000#32).extractLsb' 30 2 = BitVec.allOnes 2 from by decide,
    BitVec.and_allOnes] at h1
  have h2 := congrArg BitVec.toNat h1
  rw [BitVec.extractLsb'_toNat, Nat.shiftRight_eq_div_pow,
    show ((0x40000000#32).extractLsb' 30 2).toNat = 1 from by decide] at h2
  have h3 : m.toNat < 2 ^ 32 := m.isLt
  unfold nib
  generalize m.toNat = n at *
  have h4 : 4 ≤ n / 16 ^ 7 % 16 ∧ n / 16 ^ 7 % 16 ≤ 7 := by omega
  generalize n / 16 ^ 7 % 16 = k at *
  have : k = 4 ∨ k = 5 ∨ k = 6 ∨ k = 7 := by omega
  rcases this with h | h | h | h <;> rw [h] <;> decide

theorem ba_opt (e : Env) (w : Word) (ex : Bool) (s : S) :
    (nextBase w s, condA e w ex s) ∈ optBA (s.AMWP &&& 1 != 0) w := by
  unfold optBA
  split
  · rename_i h
    obtain ⟨h1, h2, h3⟩ := h
    have hb : nextBase w s = w.zp ||| (nib s.M 7 <<< 2) := by
      unfold nextBase; rw [h1, h2]; rfl
    have ha : condA e w ex s = (s.St.s0 && s.M &&& 0xc0000000 == 0x40000000, false) := by
      unfold condA; rw [h3]; rfl
    rw [hb, ha]
    cases hc : (s.St.s0 && s.M &&& 0xc0000000 == 0x40000000) with
    | false =>
      exact List.mem_append_left _ (List.mem_map.2 ⟨_, List.mem_range.2 (nib_lt _ _), rfl⟩)
    | true =>
      rw [Bool.and_eq_true] at hc
      exact List.mem_append_right _ (List.mem_map.2 ⟨_, rx_nib _ hc.2, rfl⟩)
  · exact List.mem_flatMap.2 ⟨_, base_opt w s, List.mem_map.2 ⟨_, condA_opt e w ex s, rfl⟩⟩

/-- Next address and branch bits. -/
def X.nab (x : X) : Nat × Bool × Bool := (x.nro, x.a, x.b)

theorem front_opt (e : Env) (w : Word) (ex : Bool) (s : S) (c : Bool) :
    ({ front e w ex s with cin := c } : X).nab ∈ optF (s.AMWP &&& 1 != 0) w :=
  List.mem_flatMap.2 ⟨_, ba_opt e w ex s, List.mem_map.2 ⟨_, condB_opt e w ex s _, rfl⟩⟩

theorem iv_opt (e : Env) (w : Word) (p : Bool) (x : X) (h : x.nab ∈ optF p w) :
    (ivStep e w x).nab ∈ optI p w := by
  have h1 : (w.iv = 1 ∨ w.iv = 2 ∨ w.iv = 3) → ∀ c : Prop, ∀ _ : Decidable c,
      ((if c then 0x140 else x.nro), x.a, x.b) ∈ optI p w := by
    intro h1 c _
    unfold optI
    rw [if_pos h1]
    split
    · exact List.mem_append_right _ (List.mem_map.2 ⟨_, h, rfl⟩)
    · exact List.mem_append_left _ h
  have h2 : x.nab ∈ optI p w := by
    unfold optI
    split
    · exact List.mem_append_left _ h
    · exact h
  unfold ivStep
  split <;> rename_i h3
  · exact h1 (.inl h3) _ _
  · exact h1 (.inr (.inl h3)) _ _
  · exact h1 (.inr (.inr h3)) _ _
  all_goals exact h2

theorem dg_nab (w : Word) (x : X) : (dgStep w x).nab = x.nab := by
  unfold dgStep; split <;> rfl

theorem adder_nab (x : X) : (adder x).nab = x.nab := rfl

theorem ad_nab (w : Word) (x : X) : (adStep w x).nab = x.nab := by
  unfold adStep; split <;> rfl

theorem al_nro (e : Env) (w : Word) (x : X) : (alStep e w x).nro = x.nro := by
  unfold alStep; split <;> rfl

theorem ssE_nro (w : Word) (x : X) : (ssEarly w x).nro = x.nro := by
  unfold ssEarly; split <;> rfl

theorem late_opt (w : Word) (p : Bool) (x : X) (h : x.nab ∈ optI p w) :
    (lateB w x).nro ∈ optL p w := by
  have h1 : (w.bb = 30 ∨ w.bb = 31) → ∀ c : Bool,
      x.nro / 4 * 4 ||| abBits (combine w.zn x.a (x.b || c)) ∈ optL p w := by
    intro h1 c
    unfold optL
    rw [if_pos h1]
    cases c with
    | false =>
      rw [Bool.or_false]
      exact List.mem_append_left _ (List.mem_map.2 ⟨_, h, rfl⟩)
    | true =>
      rw [Bool.or_true]
      exact List.mem_append_right _ (List.mem_map.2 ⟨_, h, rfl⟩)
  unfold lateB
  split <;> rename_i h2
  · exact h1 (.inl h2) _
  · exact h1 (.inr h2) _
  · rename_i h3
    unfold optL
    rw [if_neg (by rintro (h | h); exact h3 h; exact h2 h)]
    exact List.mem_map.2 ⟨_, h, rfl⟩

theorem tr_nro (e : Env) (w : Word) (x x' : X) (h : trStep e w x = .ok x') :
    x'.nro = x.nro ∨ x'.nro ∈ forced w := by
  have hp : (w.tr = 4 ∨ w.tr = 13 ∨ w.tr = 17 ∨ w.tr = 29) → ∀ (y : X) (k : X → X),
      y.nro = x.nro → (∀ z, (k z).nro = z.nro) → protect y k = .ok x' →
      x'.nro = x.nro ∨ x'.nro ∈ forced w := by
    intro hw y k h1 h2 h3
    unfold protect at h3
    split at h3
    · cases h3; exact .inl ((h2 _).trans h1)
    · split at h3
      · split at h3
        · cases h3; exact .inl ((h2 _).trans h1)
        · cases h3; refine .inr ?_
          unfold forced; rw [if_pos hw]; exact List.mem_append_left _ (List.mem_singleton.2 rfl)
      · cases h3
  have ha : (w.tr = 10 ∨ w.tr = 11) → 0x1c2 ∈ forced w := by
    intro hw
    unfold forced; rw [if_pos hw]
    exact List.mem_append_right _ (List.mem_append_left _ (List.mem_singleton.2 rfl))
  unfold trStep at h
  split at h <;> rename_i hw
  all_goals first
    | (cases h; exact .inl rfl)
    | (refine hp ?_ _ _ ?_ ?_ h <;> first | rfl | exact fun _ => rfl | simp [hw])
    | skip
  · split at h <;> (cases h; exact .inl rfl)
  · cases h
    show (if _ then _ else _) = _ ∨ (if _ then _ else _) ∈ _
    split
    · exact .inl rfl
    · exact .inr (ha (.inl hw))
  · cases h
    show (if _ then _ else _) = _ ∨ (if _ then _ else _) ∈ _
    split
    · exact .inl rfl
    · exact .inr (ha (.inr hw))

theorem ssL_nro (e : Env) (w : Word) (x x' : X) (h : ssLate e w x = .ok x') :
    x'.nro = x.nro ∨ x'.nro ∈ forced w := by
  have ha : (w.ss = 5 ∨ w.ss = 6) → 0x140 ∈ forced w := by
    intro hw
    unfold forced; rw [if_pos hw]
    exact List.mem_append_right _ (List.mem_append_right _ (List.mem_singleton.2 rfl))
  unfold ssLate at h
  split at h <;> rename_i hw
  all_goals first
    | (cases h; exact .inl rfl)
    | (split at h <;> (cases h; exact .inl rfl))
    | (split at h; cases h; exact .inl rfl; cases h)
    | skip
  · cases h
    show (if _ then _ else _) = _ ∨ (if _ then _ else _) ∈ _
    split
    · exact .inr (ha (.inl hw))
    · exact .inl rfl
  · cases h
    show (if _ then _ else _) = _ ∨ (if _ then _ else _) ∈ _
    split
    · exact .inr (ha (.inr hw))
    · exact .inl rfl

theorem ws_nro (w : Word) (x : X) : (wsStep w x).nro = x.nro := by
  unfold wsStep; split <;> rfl

theorem wm_nro (w : Word) (x : X) : (wmStep w x).nro = x.nro := by
  unfold wmStep; split <;> rfl

theorem up_nro (w : Word) (x : X) : (upStep w x).nro = x.nro := by
  unfold upStep; split <;> rfl

theorem fin_nro (w : Word) (x : X) : (finish w x).ROAR = x.nro := by
  unfold finish; split <;> rfl

/-- What the word leads to is in its list. -/
theorem exec_next {e : Env} {w : Word} {ex : Bool} {s s' : S} (h : exec e w ex s = .ok s') :
    s'.ROAR ∈ nexts (s.AMWP &&& 1 != 0) w := by
  unfold exec at h
  split at h
  · cases h
  · have hx : (adStep w (adder (dgStep w (ivStep e w
        { front e w ex s with cin := adCin w s })))).nab ∈ optI (s.AMWP &&& 1 != 0) w := by
      rw [ad_nab, adder_nab, dg_nab]
      exact iv_opt e w _ _ (front_opt e w ex s (adCin w s))
    have h0 := late_opt w _ _ hx
    have h1 := (ssE_nro w _).trans (al_nro e w (lateB w (adStep w (adder (dgStep w (ivStep e w
      { front e w ex s with cin := adCin w s }))))))
    rw [← h1] at h0
    generalize ssEarly w _ = y at h h0
    cases h2 : trStep e w y with
    | oob => rw [h2] at h; cases h
    | chan => rw [h2] at h; cases h
    | ok z =>
      rw [h2] at h
      change (ssLate e w z).bind _ = _ at h
      cases h3 : ssLate e w z with
      | oob => rw [h3] at h; cases h
      | chan => rw [h3] at h; cases h
      | ok v =>
        rw [h3] at h
        cases h
        rw [fin_nro, up_nro, wm_nro, ws_nro]
        unfold nexts
        rcases ssL_nro e w z v h3 with h4 | h4
        · rw [h4]
          rcases tr_nro e w y z h2 with h5 | h5
          · rw [h5]; exact List.mem_append_left _ h0
          · exact List.mem_append_right _ h5
        · exact List.mem_append_right _ h4

/-! ### The sets -/

/-- Addresses a problem program can come to, 256 to a row. -/
def probRow (r : Nat) : Nat :=
  match r with
  | 0 => 0xe0000000000000000000000000000000000c00e044444444400
  | 1 => 0xffd0ffee44ee44fee64ffc0000000000a0fff5fff7fb7fffff3f3f
  | 2 => 0x30333333fffffffff30000000000ffffe0ff0fffef7f000000
  | 3 => 0xfffffffffffffffffffeff0000000000ffffffffffffffffffffff
  | 4 => 0xffffffffffffffffffffff0000000000ffffffffffffffffffffff
  | 5 => 0xffffffffffffffffffffff0000000000ffffffffffffffffffffff
  | 6 => 0x1fffffffffffffffffffff0000000000ffffffffffffffffffffff
  | 7 => 0xffffffffffffffffffffff00000000004cffffd5555fffffff5fff
  | 8 => 0x7fffffffffffffffffffff0000000000fffffffffffffffffffffd
  | 9 => 0xdffffc000000000800000000000000001011025d55fffff44444fc
  | 10 => 0x0
  | 11 => 0x0
  | 12 => 0xeffbff5effffffffffffff0000000000ffffffffffffffffffffff
  | 13 => 0xffffebffffffffffffffff0000000000ffffffffffffffffffffff
  | 14 => 0xffffffffffffffffffffff0000000000ffffffffffffffffffffff
  | 15 => 0x4000
  | _ => 0

/-- Addresses the processor can come to, 256 to a row. -/
def allRow (r : Nat) : Nat :=
  match r with
  | 0 => 0xe0000000000000000000000000000000000c00e044444444400
  | 1 => 0xffffffffffffffffffffff0000000000fffff5fff7ffffffffffff
  | 2 => 0x3afb3333fffffffff30000000000fffff0ffffffef7fffef00
  | 3 => 0xfffffffffffffffffffeff0000000000ffffffffffffffffffffff
  | 4 => 0xffffffffffffffffffffff0000000000ffffffffffffffffffffff
  | 5 => 0xffffffffffffffffffffff0000000000ffffffffffffffffffffff
  | 6 => 0x1fffffffffffffffffffff0000000000ffffffffffffffffffffff
  | 7 => 0xffffffffffffffffffffff00000000004fffffd57fffffffff5fff
  | 8 => 0x7fffffffffffffffffffff0000000000fffffffffffffffffffffd
  | 9 => 0xdffffcf0000000083a000000000000001011025ff7fffff44444ff
  | 10 => 0x0
  | 11 => 0x0
  | 12 => 0xeffbff5effffffffffffff0000000000ffffffffffffffffffffff
  | 13 => 0xffffebffffffffffffffff0000000000ffffffffffffffffffffff
  | 14 => 0xffffffffffffffffffffff0000000000ffffffffffffffffffffff
  | 15 => 0x44000000000008000000000000000a000000000000005000
  | _ => 0

/-- Addresses a problem program can come to. -/
def prob (n : Nat) : Bool := (probRow (n / 256)).testBit (n % 256)

/-- Addresses the processor can come to. -/
def every (n : Nat) : Bool := (allRow (n / 256)).testBit (n % 256)

/-- The words which begin an interruption: an exceptional condition was found between two
instructions, or the exchange of PSWs begins. -/
def gate (n : Nat) : Bool := n == 0x147 || n == 0x14b || n == 0x191 || n == 0x19c

/-- Does the word change protection key, system mask, AMWP bits, storage keys or storage outside
of protection, or work with a channel? -/
def sensitive (w : Word) : Bool :=
  w.tr == 28 || w.wm == 5 || w.ss == 56 || w.ss == 31 || w.tr == 8 || needsChan w

end Verif.Cpu50
