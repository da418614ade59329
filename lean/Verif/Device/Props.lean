import Verif.Device.Lemmas
/- Properties C06-C09: device registration, lookup, removal; disk step list. -/
namespace Verif.Device

/-- C06/C07. Any history of registrations, removals and lookups on channels 0-5 that never
registers a device twice behaves exactly like the registry specification: no stray access, no
endless walk, and every lookup returns what `specRun` says. -/
theorem C06_history_matches_registry (os : List COp) (h : PreAll [] os) :
    ∃ s, crun cinit os = .ok (s, (specRun [] os).2) := by
  obtain ⟨s, h1, -⟩ := crun_rep os cinit [] cinit_rep h
  exact ⟨s, h1⟩

/-- C06. A lookup result is a registered device on the same channel with equal masked address,
and no earlier registration qualifies. -/
theorem C06_lookup_is_first_match (os : List COp) (addr mask : Nat) (h : PreAll [] (os ++ [.find addr mask])) :
    ∃ s rs res, crun cinit (os ++ [.find addr mask]) = .ok (s, rs) ∧ rs.getLast? = some res ∧
      ∀ d, res = some d ↔ ∃ a pre post, (specRun [] os).1 = pre ++ (d, a) :: post ∧
        chanNo a = chanNo addr ∧ a &&& mask = addr &&& mask ∧
        ∀ x ∈ pre, ¬ (chanNo x.2 = chanNo addr ∧ x.2 &&& mask = addr &&& mask) := by
  obtain ⟨s, h1, -⟩ := crun_rep _ cinit [] cinit_rep h
  have hspec : ∀ (os : List COp) (r : Reg), specRun r (os ++ [.find addr mask]) =
      ((specRun r os).1, (specRun r os).2 ++ [Reg.find (specRun r os).1 addr mask]) := by
    intro os
    induction os with
    | nil => intro r; rfl
    | cons o os ih =>
      intro r
      simp only [List.cons_append, specRun, ih]
      cases (specStep r o).2 <;> simp
  rw [hspec] at h1
  refine ⟨s, _, Reg.find (specRun [] os).1 addr mask, h1, by simp, ?_⟩
  intro d
  unfold Reg.find
  rw [Option.map_eq_some_iff]
  constructor
  · rintro ⟨⟨d', a⟩, hf, rfl⟩
    rw [List.find?_eq_some_iff_append] at hf
    obtain ⟨hp, pre, post, he, hpre⟩ := hf
    simp only [decide_eq_true_eq] at hp
    refine ⟨a, pre, post, he, hp.1, hp.2, ?_⟩
    intro x hx
    have := hpre x hx
    simp at this
    omega
  · rintro ⟨a, pre, post, he, h1, h2, hpre⟩
    refine ⟨(d, a), ?_, rfl⟩
    rw [List.find?_eq_some_iff_append]
    refine ⟨by simp [h1, h2], pre, post, he, ?_⟩
    intro x hx
    have := hpre x hx
    simp
    omega

/-- C06. A registered device is found by a lookup of its own address with full mask, unless an
older registration has the same address; observed on the pointer model. -/
theorem C06_registered_is_found (os : List COp) (d addr : Nat) (ha : addr < 65536)
    (h : PreAll [] (os ++ [.find addr 0xffff]))
    (hr : (d, addr) ∈ (specRun [] os).1) (hu : ∀ x ∈ (specRun [] os).1, x.2 = addr → x.1 = d)
    (hlt : ∀ x ∈ (specRun [] os).1, x.2 < 65536) :
    ∃ s rs, crun cinit (os ++ [.find addr 0xffff]) = .ok (s, rs) ∧ rs.getLast? = some (some d) := by
  have hmask : ∀ n, n < 65536 → n &&& 0xffff = n := by
    intro n hn
    have := Nat.and_two_pow_sub_one_of_lt_two_pow (x := n) (n := 16) (by simpa using hn)
    simpa using this
  obtain ⟨s, rs, res, h1, h2, h3⟩ := C06_lookup_is_first_match os addr 0xffff h
  refine ⟨s, rs, h1, ?_⟩
  rw [h2]
  congr 1
  obtain ⟨x, hx⟩ : ∃ x, (specRun [] os).1.find? (fun x => decide (x.2 = addr)) = some x := by
    rw [← Option.isSome_iff_exists, List.find?_isSome]
    exact ⟨_, hr, by simp⟩
  rw [List.find?_eq_some_iff_append] at hx
  obtain ⟨hp, pre, post, he, hpre⟩ := hx
  simp only [decide_eq_true_eq] at hp
  have hm : x ∈ (specRun [] os).1 := by rw [he]; simp
  refine (h3 d).2 ⟨addr, pre, post, ?_, rfl, rfl, ?_⟩
  · rw [he]; congr 2; rw [← hu x hm hp, ← hp]
  · intro y hy hc
    have hm : y ∈ (specRun [] os).1 := by rw [he]; simp [hy]
    have h4 := hc.2
    rw [hmask _ ha, hmask _ (hlt y hm)] at h4
    have := hpre y hy
    simp [h4] at this

/-- C07. Removing a device takes exactly its own entries on that channel out of the registry and
keeps the order of the rest; together with `C06_history_matches_registry` this is what every later
lookup observes.  An absent device changes nothing. -/
theorem C07_removal (r : Reg) (dev addr : Nat) :
    (r.del dev addr).Sublist r ∧
    (∀ x, x ∈ r.del dev addr ↔ x ∈ r ∧ ¬ (x.1 = dev ∧ chanNo x.2 = chanNo addr)) ∧
    ((∀ x ∈ r, ¬ (x.1 = dev ∧ chanNo x.2 = chanNo addr)) → r.del dev addr = r) := by
  refine ⟨List.filter_sublist, ?_, ?_⟩
  · intro x
    simp [Reg.del, List.mem_filter]
    intro _
    omega
  · intro h
    unfold Reg.del
    rw [List.filter_eq_self]
    intro x hx
    have := h x hx
    simp
    omega

/-- C07. After removing a device a lookup on that channel never returns it (device registered
once), observed on the pointer model itself. -/
theorem C07_removed_is_not_found (os : List COp) (dev addr a m : Nat)
    (h : PreAll [] (os ++ [.del dev addr, .find a m])) (hch : chanNo a = chanNo addr) :
    ∃ s rs res, crun cinit (os ++ [.del dev addr, .find a m]) = .ok (s, rs) ∧ rs.getLast? = some res ∧ res ≠ some dev := by
  have e : os ++ [.del dev addr, .find a m] = (os ++ [.del dev addr]) ++ [.find a m] := by simp
  rw [e] at h ⊢
  obtain ⟨s, rs, res, h1, h2, h3⟩ := C06_lookup_is_first_match _ a m h
  refine ⟨s, rs, res, h1, h2, ?_⟩
  intro hc
  obtain ⟨a', pre, post, he, hca, -, -⟩ := (h3 dev).1 hc
  have hspec : ∀ (os : List COp) (r : Reg), (specRun r (os ++ [.del dev addr])).1 = Reg.del (specRun r os).1 dev addr := by
    intro os
    induction os with
    | nil => intro r; rfl
    | cons o os ih => intro r; simp only [List.cons_append, specRun, ih]
  rw [hspec] at he
  have hm : (dev, a') ∈ Reg.del (specRun [] os).1 dev addr := by rw [he]; simp
  have := ((C07_removal _ dev addr).2.1 (dev, a')).1 hm
  exact this.2 ⟨rfl, hca.trans hch⟩

/-- The full claim C08: no 16-bit address leaves the channel table. -/
def ChannelTableSafe : Prop :=
  ∀ addr, addr < 65536 → addChan cinit 0 addr ≠ .oob ∧ findChan cinit addr 0xffff ≠ .oob

/-- C08 is violated: address 0x600 selects entry 6 of the 6-entry table. -/
theorem C08_violated_channel_six : ¬ ChannelTableSafe := by
  intro h
  exact (h 0x600 (by decide)).1 (by rfl)

/-- C08, partial: exactly the addresses of channels 6 and 7 leave the table. -/
theorem C08_channel_table_bounds_partial (s : CSt) (addr mask : Nat) :
    (findChan s addr mask = .oob ↔ 6 ≤ chanNo addr) ∧ (addChan s 0 addr = .oob ↔ 6 ≤ chanNo addr) := by
  have hfl : ∀ (n : Nat) (p : Option Nat), findLoop s addr mask n p ≠ .oob := by
    intro n
    induction n with
    | zero => intro p; cases p <;> simp [findLoop]
    | succ n ih => intro p; cases p with
      | none => simp [findLoop]
      | some d => simp only [findLoop]; split <;> simp [ih]
  have hwe : ∀ (s : CSt) (n d : Nat), walkEnd s n d ≠ .oob := by
    intro s n
    induction n with
    | zero => intro d; simp [walkEnd]
    | succ n ih => intro d; simp only [walkEnd]; split <;> simp [ih]
  constructor
  · unfold findChan rdChan
    by_cases h : chanNo addr < 6
    · simp [h, hfl]
    · simp [h]; constructor
      · intro _; omega
      · intro _; rfl
  · unfold addChan rdChan
    by_cases h : chanNo addr < 6
    · simp only [chOf_eq, h, if_true, Res.bind_ok]
      constructor
      · intro h'
        exfalso
        split at h'
        · cases h'
        · rename_i d _
          rcases hw : walkEnd { s with addr := setF s.addr 0 addr, next := setF s.next 0 none, cnt := s.cnt + 1 } (s.cnt + 1) d with e | _ | _ | _
          · simp only [hw] at h'; cases h'
          · exact hwe _ _ _ hw
          · simp only [hw] at h'; cases h'
          · simp only [hw] at h'; cases h'
      · intro h'; omega
    · simp [h]; constructor
      · intro _; omega
      · intro _; rfl

/-- C09. Over any history of adding and deleting real drives, each `step_disk` calls the step
routine of each registered drive once, newest first, and deleting removes the newest entry of
that drive only; no freed node is touched. -/
theorem C09_disk_steps (base : Nat) (os : List DOp) (h : ∀ o ∈ os, o.Pre base) :
    ∃ s, drun (dinit base) os = .ok (s, (dspec [] os).2) := by
  obtain ⟨s, h1, -⟩ := drun_rep os (dinit base) [] (dinit_rep base) h
  exact ⟨s, h1⟩

/-- C09, caveat: deleting a NULL drive from an empty list dereferences NULL (device.c 205). -/
theorem C09_null_drive_faults (base : Nat) : delDisk (dinit base) none = .badptr := rfl

/-! Non-vacuity -/

def demoC : List COp := [.add 1 0x00c, .add 2 0x10e, .add 3 0x00d, .find 0x00d 0xffff, .del 1 0x00c, .find 0x00c 0xff0]

example : PreAll [] demoC := by
  simp [demoC, PreAll, COp.Pre, specStep, chanNo, Reg.del]

example : ∃ s, crun cinit demoC = .ok (s, [some 3, some 3]) := ⟨_, rfl⟩

example : ∀ o ∈ [DOp.add 7 (some 1), .add 8 (some 2), .step, .del (some 1), .step], o.Pre 10 := by
  simp [DOp.Pre]

example : ∃ s, drun (dinit 10) [DOp.add 7 (some 1), .add 8 (some 2), .step, .del (some 1), .step] =
    .ok (s, [[(8, some 2), (7, some 1)], [(8, some 2)]]) := ⟨_, rfl⟩

end Verif.Device
