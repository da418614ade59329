import Verif.Dasd.Seek
/-!
# A drive that meets the hypotheses of the seek theorems
-/
namespace Verif.Dasd
open Verif.Card (Res look)

/-- Every freshly formatted and attached drive is mounted, its buffer the same as the file. -/
theorem attached_ready (t : DiskType) (file : List Nat) (ht : t ∈ diskTypes) :
    ∃ s, attach (fresh t) file true = .ok s ∧ Mounted s ∧ s.dirty = false ∧
      s.cbuf = some (readAt s.file s.fpos (Spec.cylSize s.ty)) ∧ s.ty = t ∧ s.cyl = 0 ∧
      ∃ b f l, s = { fresh t with
        opened := true, file := f, tsize := trackSize t, cbuf := some (0 :: b),
        fpos := hdrSize, online := true, ready := true, cyl := 0, tstart := 0, label := l } := by
  obtain ⟨r, hr⟩ := attach_format (fresh t) file ht rfl (by intro c hc; cases hc) (Nat.zero_le _)
  have h : ∃ n, nameBack (volName8 (fresh t).label) = .ok n := by
    refine ⟨[0x31, 0x31, 0x31, 0x31, 0x31, 0x31, 0x20, 0], ?_⟩
    show nameBack (volName8 []) = _
    decide +kernel
  obtain ⟨n, h⟩ := h
  rw [h, bk] at hr
  have sn := sane t ht
  refine ⟨_, hr, mounted_fresh (fresh t) [] r n ht rfl, rfl, ?_, rfl, rfl, ?_⟩
  · show some (freshCyl true [] (trackSize t) t.heads 0) =
      some (readAt (header t ++ freshImage true [] t ++ r) hdrSize (Spec.cylSize t))
    congr 1
    obtain ⟨r1, h1⟩ := slice_range (freshCyl true [] (trackSize t) t.heads) (t.heads * trackSize t) t.cyl 0 r
      (fun x _ => freshCyl_length _ _ _ _ _ sn.1) sn.2.2.2.1
    simp only [Nat.zero_mul, List.drop_zero] at h1
    have hl : (freshCyl true [] (trackSize t) t.heads 0).length = Spec.cylSize t := by
      rw [freshCyl_length _ _ _ _ _ sn.1, Nat.mul_comm]; rfl
    unfold readAt
    rw [← header_length t, List.append_assoc, List.drop_left]
    unfold freshImage
    rw [h1, ← hl, List.take_left]
  · obtain ⟨r2, h2⟩ := slice_range (freshTrack true [] (trackSize t) 0) (trackSize t) t.heads 0 []
      (fun x _ => freshTrack_length _ _ _ _ _ sn.1) sn.2.2.2.2.1
    have : ∃ b, freshCyl true [] (trackSize t) t.heads 0 = 0 :: b := by
      simp only [Nat.zero_mul, List.drop_zero, List.append_nil] at h2
      unfold freshCyl
      rw [h2]
      exact ⟨_, rfl⟩
    obtain ⟨b, hb⟩ := this
    refine ⟨b, header t ++ freshImage true [] t ++ r, n, ?_⟩
    rw [← hb]
    rfl

/-- The 2311. -/
def d2311 : DiskType := ⟨"2311", 203, 10, 3717, 0x11, 36, 36, 36, 6, 13⟩

theorem d2311_mem : d2311 ∈ diskTypes := by decide

/-- A byte offered until the drive takes it. -/
def offer (d : Nat) : List Io := List.replicate 14 ⟨d, false, false⟩

/-- Writing the sync byte and the flag byte of a home address on a freshly attached 2311 changes the cylinder, so
`C41_violated_unmarked` and `C89_violated_unmarked` are about lost data. -/
theorem C41_violated_reached (file : List Nat) :
    ∃ s t, attach (fresh d2311) file true = .ok s ∧ Mounted s ∧ Saved s ∧ s.dirty = false ∧
      writes s (offer 0x0e ++ offer 0x55) = .ok t ∧ Spec.cylinder t 0 ≠ Spec.cylinder s 0 := by
  obtain ⟨s, h, m, d, sv, hty, hc, b, f, l, rfl⟩ := attached_ready d2311 file d2311_mem
  refine ⟨_, _, h, m, Or.inr sv, d, rfl, ?_⟩
  show 0x55 :: b ≠ 0 :: b
  simp

/-- The hypotheses of `C41_seek_partial`, `C89_detach_partial` and `C90_reading_partial` on a freshly attached 2311, with a
history that reads a byte, then seeks from cylinder 0 to cylinder 7. -/
example (file : List Nat) : ∃ s u, attach (fresh d2311) file true = .ok s ∧ Mounted s ∧ Saved s ∧ Hist 0 s u ∧ Look s u ∧ u.cyl = 7 := by
  obtain ⟨s, h, m, d, sv, hty, hc, b, f, l, hs⟩ := attached_ready d2311 file d2311_mem
  have e1 : act s (.tags 0x41 7) = .ok { s with ncyl := 7 } := setCyl_eq s 7
  have m1 : Mounted { s with ncyl := 7 } := ⟨m.1, m.2, m.3, m.4, m.5, m.6⟩
  obtain ⟨t, ht, -, -, tty, tc, -⟩ := seek_keeps { s with ncyl := 7 } m1 (Or.inr sv) (by show 7 < s.ty.cyl; rw [hty]; decide)
  have e2 : act { s with ncyl := 7 } .seek = .ok t := ht
  refine ⟨s, t, h, m, Or.inr sv, ?_, ?_, tc⟩
  · exact .step .seek (.step _ (.refl s) e1 (by intro h; cases h) (by intro _ h; cases h)) e2
      (by intro _; show 7 < s.ty.cyl; rw [hty]; decide) (by intro _ h; cases h)
  · exact .step .seek (.step _ (.refl s) e1 (by intro h; cases h) (by intro _ h; cases h)) e2
      (by intro _; show 7 < s.ty.cyl; rw [hty]; decide) (by intro _ h; cases h)

end Verif.Dasd
