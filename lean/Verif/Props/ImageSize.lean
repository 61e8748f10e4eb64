import Verif.Props.Image
import Verif.Model.Anchor
/-!
C58: the size an image is shown at. Findings F111, F112.
-/
namespace Verif
open Spec

/-- The width of the image in pixels of 1/96 inch, as the file states it. -/
def Spec.naturalWidth (im : Img) : Rat := (im.width : Rat) * 96 / im.widthDpi
/-- The height of the image in pixels of 1/96 inch, as the file states it. -/
def Spec.naturalHeight (im : Img) : Rat := (im.height : Rat) * 96 / im.heightDpi

/-- What reading guarantees. -/
structure Img.Sound (im : Img) : Prop where
  width : 0 < im.width
  height : 0 < im.height
  widthDpi : 0 < im.widthDpi
  heightDpi : 0 < im.heightDpi

/-- The densities of a scan are positive. -/
def ImgScan.Pos (s : ImgScan) : Prop := 0 < s.widthDpi ∧ 0 < s.heightDpi

theorem natCast_pos {n : Nat} (h : 0 < n) : (0 : Rat) < (n : Rat) := by exact_mod_cast h

theorem natCast_nonneg (n : Nat) : (0 : Rat) ≤ (n : Rat) := by exact_mod_cast Nat.zero_le n

theorem rat_div_pos {a b : Rat} (ha : 0 < a) (hb : 0 < b) : 0 < a / b := by
  rw [Rat.div_def]
  exact Rat.mul_pos ha (Rat.inv_pos.mpr hb)

theorem pngDims_pos {data : List UInt8} {off : Nat} {m : List UInt8} {s s' : ImgScan}
    (h : pngDims data off m s = .ok s') (hp : s.Pos) : s'.Pos := by
  unfold pngDims at h
  split at h
  · cases e2 : unpackU32be data (off + 8) with
    | error x => rw [e2] at h; exact absurd h (by simp [bind, Except.bind])
    | ok x =>
      cases e3 : unpackU32be data (off + 12) with
      | error x => rw [e2, e3] at h; exact absurd h (by simp [bind, Except.bind])
      | ok y =>
        rw [e2, e3, ok_bind, ok_bind] at h
        injection h with h; subst h; exact hp
  · injection h with h; subst h; exact hp

theorem pngDensity_pos {data : List UInt8} {off : Nat} {m : List UInt8} {s s' : ImgScan}
    (h : pngDensity data off m s = .ok s') (hp : s.Pos) : s'.Pos := by
  unfold pngDensity at h
  split at h
  · cases e1 : bindex data (off + 16) with
    | error x => rw [e1] at h; exact absurd h (by simp [bind, Except.bind])
    | ok u =>
      cases e2 : unpackU32be data (off + 8) with
      | error x => rw [e1, e2] at h; exact absurd h (by simp [bind, Except.bind])
      | ok x =>
        cases e3 : unpackU32be data (off + 12) with
        | error x => rw [e1, e2, e3] at h; exact absurd h (by simp [bind, Except.bind])
        | ok y =>
          rw [e1, e2, e3, ok_bind, ok_bind, ok_bind] at h
          split at h
          · rename_i hc
            injection h with h; subst h
            have c : (0 : Rat) < 254 / 10000 := by decide +kernel
            exact ⟨Rat.mul_pos (natCast_pos hc.2.1) c, Rat.mul_pos (natCast_pos hc.2.2) c⟩
          · injection h with h; subst h; exact hp
  · injection h with h; subst h; exact hp

theorem pngLoop_pos (data : List UInt8) : ∀ (k off : Nat) (s s' : ImgScan), data.length - off ≤ k →
    pngLoop data off s = .ok s' → s.Pos → s'.Pos := by
  intro k
  induction k with
  | zero =>
    intro off s s' hk h hp
    rw [pngLoop, dif_neg (by omega)] at h
    injection h with h; subst h; exact hp
  | succ k ih =>
    intro off s s' hk h hp
    rw [pngLoop] at h
    split at h
    · cases e1 : bslice data (off + 4) (off + 8) with
      | error x => rw [e1] at h; exact absurd h (by simp [bind, Except.bind])
      | ok m =>
        cases e2 : unpackU32be data off with
        | error x => rw [e1, e2] at h; exact absurd h (by simp [bind, Except.bind])
        | ok l =>
          rw [e1, e2, ok_bind, ok_bind] at h
          cases e3 : pngDims data off m s with
          | error x => rw [e3] at h; exact absurd h (by simp [bind, Except.bind])
          | ok s1 =>
            rw [e3, ok_bind] at h
            cases e4 : pngDensity data off m s1 with
            | error x => rw [e4] at h; exact absurd h (by simp [bind, Except.bind])
            | ok s2 =>
              rw [e4, ok_bind] at h
              have hp2 := pngDensity_pos e4 (pngDims_pos e3 hp)
              split at h
              · injection h with h; subst h; exact hp2
              · exact ih _ s2 s' (by omega) h hp2
    · injection h with h; subst h; exact hp

theorem jpgDims_pos {data : List UInt8} {off m : Nat} {s s' : ImgScan}
    (h : jpgDims data off m s = .ok s') (hp : s.Pos) : s'.Pos := by
  unfold jpgDims at h
  split at h
  · cases e2 : unpackU16be data (off + 5) with
    | error x => rw [e2] at h; exact absurd h (by simp [bind, Except.bind])
    | ok x =>
      cases e3 : unpackU16be data (off + 7) with
      | error x => rw [e2, e3] at h; exact absurd h (by simp [bind, Except.bind])
      | ok y =>
        rw [e2, e3, ok_bind, ok_bind] at h
        injection h with h; subst h; exact hp
  · injection h with h; subst h; exact hp

theorem jpgWorkaround_pos {d : Rat} (h : 0 ≤ d) : 0 < jpgWorkaround d := by
  unfold jpgWorkaround
  split
  · decide +kernel
  · rename_i hc
    grind

theorem jpgDensity_pos {data : List UInt8} {off m : Nat} {s s' : ImgScan}
    (h : jpgDensity data off m s = .ok s') (hp : s.Pos) : s'.Pos := by
  unfold jpgDensity at h
  split at h
  · cases e1 : bindex data (off + 11) with
    | error x => rw [e1] at h; exact absurd h (by simp [bind, Except.bind])
    | ok u =>
      cases e2 : unpackU16be data (off + 12) with
      | error x => rw [e1, e2] at h; exact absurd h (by simp [bind, Except.bind])
      | ok x =>
        cases e3 : unpackU16be data (off + 14) with
        | error x => rw [e1, e2, e3] at h; exact absurd h (by simp [bind, Except.bind])
        | ok y =>
          rw [e1, e2, e3, ok_bind, ok_bind, ok_bind] at h
          injection h with h
          subst h
          have hx := natCast_nonneg x
          have hy := natCast_nonneg y
          have := hp.1
          have := hp.2
          constructor
          · dsimp only
            apply jpgWorkaround_pos
            split <;> (try split) <;> grind
          · dsimp only
            apply jpgWorkaround_pos
            split <;> (try split) <;> grind
  · injection h with h; subst h; exact hp

theorem jpgLoop_pos (data : List UInt8) : ∀ (k off : Nat) (s s' : ImgScan), data.length - off ≤ k →
    jpgLoop data off s = .ok s' → s.Pos → s'.Pos := by
  intro k
  induction k with
  | zero =>
    intro off s s' hk h hp
    rw [jpgLoop, dif_neg (by omega)] at h
    injection h with h; subst h; exact hp
  | succ k ih =>
    intro off s s' hk h hp
    rw [jpgLoop] at h
    split at h
    · cases e1 : unpackU16be data off with
      | error x => rw [e1] at h; exact absurd h (by simp [bind, Except.bind])
      | ok m =>
        cases e2 : unpackU16be data (off + 2) with
        | error x => rw [e1, e2] at h; exact absurd h (by simp [bind, Except.bind])
        | ok l =>
          rw [e1, e2, ok_bind, ok_bind] at h
          cases e3 : jpgDims data off m s with
          | error x => rw [e3] at h; exact absurd h (by simp [bind, Except.bind])
          | ok s1 =>
            rw [e3, ok_bind] at h
            cases e4 : jpgDensity data off m s1 with
            | error x => rw [e4] at h; exact absurd h (by simp [bind, Except.bind])
            | ok s2 =>
              rw [e4, ok_bind] at h
              have hp2 := jpgDensity_pos e4 (jpgDims_pos e3 hp)
              split at h
              · injection h with h; subst h; exact hp2
              · exact ih _ s2 s' (by omega) h hp2
    · injection h with h; subst h; exact hp

theorem scan_pos : ({} : ImgScan).Pos := ⟨by decide +kernel, by decide +kernel⟩

/-- Every accepted image has positive dimensions and densities, and is not scaled. -/
theorem accepted_sound (data : List UInt8) (im : Img) (h : Image.newFromBuffer data = .ok im) :
    im.Sound ∧ im.scaleWidth = 1 ∧ im.scaleHeight = 1 := by
  obtain ⟨hw, hh, _⟩ := C35_accepted data im h
  have hl : 4 ≤ data.length := by
    apply Classical.byContradiction
    intro hc
    rw [newFromBuffer_short (by omega)] at h
    exact absurd h (by simp)
  suffices hs : (0 < im.widthDpi ∧ 0 < im.heightDpi) ∧ im.scaleWidth = 1 ∧ im.scaleHeight = 1 from
    ⟨⟨hw, hh, hs.1.1, hs.1.2⟩, hs.2⟩
  have h96 : (0 : Rat) < 96 := by decide +kernel
  match data, hl with
  | a :: b :: c :: d :: rest, _ =>
    rw [newFromBuffer_cons] at h
    cases e : processByMarker (a :: b :: c :: d :: rest) [b, c, d] [a, b] [a, b, c, d] (a.toNat * 256 + b.toNat) with
    | error x => rw [e] at h; exact absurd h (by simp [bind, Except.bind])
    | ok im' =>
      rw [e, ok_bind] at h
      split at h
      · exact absurd h (by simp)
      · injection h with h
        subst h
        unfold processByMarker at e
        split at e
        · cases e1 : pngLoop (a :: b :: c :: d :: rest) 8 {} with
          | error x => rw [e1] at e; exact absurd e (by simp [bind, Except.bind])
          | ok s =>
            rw [e1, ok_bind] at e
            injection e with e
            subst e
            exact ⟨pngLoop_pos _ _ 8 {} s (Nat.le_refl _) e1 scan_pos, rfl, rfl⟩
        · split at e
          · cases e1 : jpgLoop (a :: b :: c :: d :: rest) 2 {} with
            | error x => rw [e1] at e; exact absurd e (by simp [bind, Except.bind])
            | ok s =>
              rw [e1, ok_bind] at e
              injection e with e
              subst e
              exact ⟨jpgLoop_pos _ _ 2 {} s (Nat.le_refl _) e1 scan_pos, rfl, rfl⟩
          · split at e
            · unfold processBmp at e
              cases e1 : unpackU32le (a :: b :: c :: d :: rest) 18 with
              | error x => rw [e1] at e; exact absurd e (by simp [bind, Except.bind])
              | ok m =>
                cases e2 : unpackU32le (a :: b :: c :: d :: rest) 22 with
                | error x => rw [e1, e2] at e; exact absurd e (by simp [bind, Except.bind])
                | ok n =>
                  rw [e1, e2] at e
                  injection e with e
                  subst e
                  exact ⟨⟨h96, h96⟩, rfl, rfl⟩
            · split at e
              · unfold processGif at e
                cases e1 : unpackU16le (a :: b :: c :: d :: rest) 6 with
                | error x => rw [e1] at e; exact absurd e (by simp [bind, Except.bind])
                | ok m =>
                  cases e2 : unpackU16le (a :: b :: c :: d :: rest) 8 with
                  | error x => rw [e1, e2] at e; exact absurd e (by simp [bind, Except.bind])
                  | ok n =>
                    rw [e1, e2] at e
                    injection e with e
                    subst e
                    exact ⟨⟨h96, h96⟩, rfl, rfl⟩
              · exact absurd e (by simp)

/-- The calls that change the size of an image. -/
inductive SizeCall where
  | width (w : Nat) | height (h : Nat) | scaleWidth (s : Rat) | scaleHeight (s : Rat)
  | toSize (w h : Rat) (keep : Bool)

def SizeCall.apply (im : Img) : SizeCall → Img
  | .width w => im.setWidth w
  | .height h => im.setHeight h
  | .scaleWidth s => im.setScaleWidth s
  | .scaleHeight s => im.setScaleHeight s
  | .toSize w h k => im.setScaleToSize w h k

theorem setScaleWidth_same (im : Img) (s : Rat) :
    (im.setScaleWidth s).width = im.width ∧ (im.setScaleWidth s).height = im.height ∧
    (im.setScaleWidth s).widthDpi = im.widthDpi ∧ (im.setScaleWidth s).heightDpi = im.heightDpi := by
  unfold Img.setScaleWidth; split <;> exact ⟨rfl, rfl, rfl, rfl⟩

theorem setScaleHeight_same (im : Img) (s : Rat) :
    (im.setScaleHeight s).width = im.width ∧ (im.setScaleHeight s).height = im.height ∧
    (im.setScaleHeight s).widthDpi = im.widthDpi ∧ (im.setScaleHeight s).heightDpi = im.heightDpi := by
  unfold Img.setScaleHeight; split <;> exact ⟨rfl, rfl, rfl, rfl⟩

theorem apply_same (im : Img) (c : SizeCall) :
    (c.apply im).width = im.width ∧ (c.apply im).height = im.height ∧
    (c.apply im).widthDpi = im.widthDpi ∧ (c.apply im).heightDpi = im.heightDpi := by
  cases c with
  | width w => dsimp only [SizeCall.apply]; unfold Img.setWidth; split <;> exact ⟨rfl, rfl, rfl, rfl⟩
  | height h => dsimp only [SizeCall.apply]; unfold Img.setHeight; split <;> exact ⟨rfl, rfl, rfl, rfl⟩
  | scaleWidth s => exact setScaleWidth_same im s
  | scaleHeight s => exact setScaleHeight_same im s
  | toSize w h k =>
    dsimp only [SizeCall.apply]; unfold Img.setScaleToSize
    split
    · exact ⟨rfl, rfl, rfl, rfl⟩
    · have a := setScaleHeight_same
      have b := setScaleWidth_same
      simp only [a, b, and_self]

/-- Images of the API: read from a buffer, then resized any number of times. -/
inductive Img.Reached : Img → Prop
  | read {data : List UInt8} {im : Img} : Image.newFromBuffer data = .ok im → Img.Reached im
  | call {im : Img} (c : SizeCall) : Img.Reached im → Img.Reached (c.apply im)

theorem reached_sound {im : Img} (h : im.Reached) : im.Sound := by
  induction h with
  | read h => exact (accepted_sound _ _ h).1
  | call c _ ih =>
    obtain ⟨a, b, d, e⟩ := apply_same _ c
    exact ⟨by rw [a]; exact ih.width, by rw [b]; exact ih.height, by rw [d]; exact ih.widthDpi,
      by rw [e]; exact ih.heightDpi⟩

theorem sound_ne {im : Img} (h : im.Sound) :
    (im.width : Rat) ≠ 0 ∧ (im.height : Rat) ≠ 0 ∧ im.widthDpi ≠ 0 ∧ im.heightDpi ≠ 0 := by
  have a := natCast_pos h.width
  have b := natCast_pos h.height
  have c := h.widthDpi
  have d := h.heightDpi
  refine ⟨?_, ?_, ?_, ?_⟩ <;> grind

/-- C58: an image is shown at the size its file states until it is resized. -/
theorem C58_natural_size (data : List UInt8) (im : Img) (h : Image.newFromBuffer data = .ok im) :
    im.widthScaled = naturalWidth im ∧ im.heightScaled = naturalHeight im := by
  obtain ⟨_, a, b⟩ := accepted_sound data im h
  unfold Img.widthScaled Img.heightScaled naturalWidth naturalHeight
  rw [a, b]
  constructor <;> grind

/-- C58: a positive scale multiplies the size the file states, whatever was set before. -/
theorem C58_set_scale (im : Img) (s : Rat) (hs : 0 < s) :
    (im.setScaleWidth s).widthScaled = s * naturalWidth im ∧
    (im.setScaleHeight s).heightScaled = s * naturalHeight im ∧
    (im.setScaleWidth s).heightScaled = im.heightScaled ∧
    (im.setScaleHeight s).widthScaled = im.widthScaled := by
  unfold Img.setScaleWidth Img.setScaleHeight
  rw [if_neg (by grind), if_neg (by grind)]
  unfold Img.widthScaled Img.heightScaled naturalWidth naturalHeight
  dsimp only
  refine ⟨?_, ?_, rfl, rfl⟩ <;> grind

/-- C58: scaled to a size, the image is shown at that size, whatever was set before. -/
theorem C58_scale_to_size (im : Img) (hi : im.Reached) (w h : Rat) (hw : 0 < w) (hh : 0 < h) :
    (im.setScaleToSize w h false).widthScaled = w ∧ (im.setScaleToSize w h false).heightScaled = h := by
  have hs := reached_sound hi
  obtain ⟨n1, n2, n3, n4⟩ := sound_ne hs
  have p1 := natCast_pos hs.width
  have p2 := natCast_pos hs.height
  have d1 := hs.widthDpi
  have d2 := hs.heightDpi
  have s1 : 0 < (w / (im.width : Rat)) * (im.widthDpi / 96) :=
    Rat.mul_pos (rat_div_pos hw p1) (rat_div_pos d1 (by decide +kernel))
  have s2 : 0 < (h / (im.height : Rat)) * (im.heightDpi / 96) :=
    Rat.mul_pos (rat_div_pos hh p2) (rat_div_pos d2 (by decide +kernel))
  unfold Img.setScaleToSize
  rw [if_neg (by grind)]
  dsimp only
  rw [if_neg (by simp), if_neg (by simp)]
  unfold Img.setScaleHeight Img.setScaleWidth
  rw [if_neg (by grind), if_neg (by grind)]
  unfold Img.widthScaled Img.heightScaled
  dsimp only
  constructor <;> grind

/-- C58: scaled to a size with its aspect ratio kept, the image fits the size, fills it in one
direction, and keeps the ratio of the sizes its file states. -/
theorem C58_keep_aspect (im : Img) (hi : im.Reached) (w h : Rat) (hw : 0 < w) (hh : 0 < h) :
    let r := im.setScaleToSize w h true
    r.widthScaled ≤ w ∧ r.heightScaled ≤ h ∧ (r.widthScaled = w ∨ r.heightScaled = h) ∧
    r.widthScaled * naturalHeight im = r.heightScaled * naturalWidth im := by
  intro r
  have hs := reached_sound hi
  obtain ⟨n1, n2, n3, n4⟩ := sound_ne hs
  have p1 := natCast_pos hs.width
  have p2 := natCast_pos hs.height
  have d1 := hs.widthDpi
  have d2 := hs.heightDpi
  have s1 : 0 < (w / (im.width : Rat)) * (im.widthDpi / 96) :=
    Rat.mul_pos (rat_div_pos hw p1) (rat_div_pos d1 (by decide +kernel))
  have s2 : 0 < (h / (im.height : Rat)) * (im.heightDpi / 96) :=
    Rat.mul_pos (rat_div_pos hh p2) (rat_div_pos d2 (by decide +kernel))
  have f1 : 0 < (im.width : Rat) * 96 / im.widthDpi :=
    rat_div_pos (Rat.mul_pos p1 (by decide +kernel)) d1
  have f2 : 0 < (im.height : Rat) * 96 / im.heightDpi :=
    rat_div_pos (Rat.mul_pos p2 (by decide +kernel)) d2
  have w1 : (w / (im.width : Rat)) * (im.widthDpi / 96) * ((im.width : Rat) * 96 / im.widthDpi) = w := by
    grind
  have h1 : (h / (im.height : Rat)) * (im.heightDpi / 96) * ((im.height : Rat) * 96 / im.heightDpi) = h := by
    grind
  have mono : ∀ {x y f : Rat}, x ≤ y → 0 < f → x * f ≤ y * f := fun hxy hf =>
    Rat.mul_le_mul_of_nonneg_right hxy (Rat.le_of_lt hf)
  have key : ∃ t : Rat, r.widthScaled = t * ((im.width : Rat) * 96 / im.widthDpi) ∧
      r.heightScaled = t * ((im.height : Rat) * 96 / im.heightDpi) ∧
      t ≤ (w / (im.width : Rat)) * (im.widthDpi / 96) ∧ t ≤ (h / (im.height : Rat)) * (im.heightDpi / 96) ∧
      (t = (w / (im.width : Rat)) * (im.widthDpi / 96) ∨ t = (h / (im.height : Rat)) * (im.heightDpi / 96)) := by
    show ∃ t : Rat, (im.setScaleToSize w h true).widthScaled = _ ∧ (im.setScaleToSize w h true).heightScaled = _ ∧ _
    unfold Img.setScaleToSize
    rw [if_neg (by grind)]
    dsimp only
    by_cases hc : (w / (im.width : Rat)) * (im.widthDpi / 96) < (h / (im.height : Rat)) * (im.heightDpi / 96)
    · rw [if_neg (fun x => x.2 hc), if_pos ⟨rfl, hc⟩]
      refine ⟨(w / (im.width : Rat)) * (im.widthDpi / 96), ?_, ?_, Rat.le_refl, Rat.le_of_lt hc, Or.inl rfl⟩
      all_goals
        unfold Img.setScaleHeight Img.setScaleWidth
        rw [if_neg (by grind), if_neg (by grind)]
        simp only [Img.widthScaled, Img.heightScaled]
        grind
    · rw [if_pos ⟨rfl, hc⟩, if_neg (fun x => hc x.2)]
      refine ⟨(h / (im.height : Rat)) * (im.heightDpi / 96), ?_, ?_, Rat.not_lt.mp hc, Rat.le_refl, Or.inr rfl⟩
      all_goals
        unfold Img.setScaleHeight Img.setScaleWidth
        rw [if_neg (by grind), if_neg (by grind)]
        simp only [Img.widthScaled, Img.heightScaled]
        grind
  obtain ⟨t, e1, e2, t1, t2, t3⟩ := key
  unfold naturalWidth naturalHeight
  rw [e1, e2]
  refine ⟨?_, ?_, ?_, ?_⟩
  · have := mono t1 f1; rw [w1] at this; exact this
  · have := mono t2 f2; rw [h1] at this; exact this
  · rcases t3 with h' | h'
    · left; rw [h', w1]
    · right; rw [h', h1]
  · grind

/-- C58: with a width (height) set in pixels, an image of 96 dots per inch is shown at that width
(height). Missing: other densities (`C58_set_width_counterexample`). -/
theorem C58_set_size_partial (im : Img) (hi : im.Reached) (n : Nat) (hn : 0 < n) :
    (im.widthDpi = 96 → (im.setWidth n).widthScaled = (n : Rat)) ∧
    (im.heightDpi = 96 → (im.setHeight n).heightScaled = (n : Rat)) ∧
    (im.setWidth n).heightScaled = im.heightScaled ∧ (im.setHeight n).widthScaled = im.widthScaled := by
  have hs := reached_sound hi
  obtain ⟨n1, n2, n3, n4⟩ := sound_ne hs
  unfold Img.setWidth Img.setHeight
  rw [if_neg (by omega), if_neg (by omega)]
  unfold Img.widthScaled Img.heightScaled
  dsimp only
  refine ⟨?_, ?_, rfl, rfl⟩
  · intro hd; rw [hd]; grind
  · intro hd; rw [hd]; grind

/-- C58: in general the width (height) set is that of the image at its own density. -/
theorem C58_set_size_dpi (im : Img) (hi : im.Reached) (n : Nat) (hn : 0 < n) :
    (im.setWidth n).widthScaled = (n : Rat) * 96 / im.widthDpi ∧
    (im.setHeight n).heightScaled = (n : Rat) * 96 / im.heightDpi := by
  have hs := reached_sound hi
  obtain ⟨n1, n2, n3, n4⟩ := sound_ne hs
  unfold Img.setWidth Img.setHeight
  rw [if_neg (by omega), if_neg (by omega)]
  unfold Img.widthScaled Img.heightScaled
  dsimp only
  constructor <;> grind

/-- `insert_image_fit_to_cell`, /repo/src/worksheet.rs:5426-5431: the image that is stored for a cell
whose column and row have the given sizes. -/
def fitToCell (im : Img) (changedCols : Nat → Option LineSize) (changedRows : Nat → Option LineSize)
    (defaultHeight : Nat) (after : MoveAfter) (row col : Nat) (keep : Bool) : Img :=
  im.setScaleToSize (columnPx changedCols after col : Nat) (rowPx changedRows defaultHeight after row : Nat) keep

/-- C58: fitted to a cell of positive size, the image covers the cell (or fits it, with its aspect
ratio kept). Missing: hidden cells (`C58_hidden_cell_counterexample`). -/
theorem C58_fit_to_cell_partial (im : Img) (hi : im.Reached) (cc cr : Nat → Option LineSize) (dh : Nat)
    (after : MoveAfter) (row col : Nat) (hc : 0 < columnPx cc after col) (hr : 0 < rowPx cr dh after row) :
    ((fitToCell im cc cr dh after row col false).widthScaled = (columnPx cc after col : Nat) ∧
     (fitToCell im cc cr dh after row col false).heightScaled = (rowPx cr dh after row : Nat)) ∧
    ((fitToCell im cc cr dh after row col true).widthScaled ≤ (columnPx cc after col : Nat) ∧
     (fitToCell im cc cr dh after row col true).heightScaled ≤ (rowPx cr dh after row : Nat)) := by
  refine ⟨C58_scale_to_size im hi _ _ (natCast_pos hc) (natCast_pos hr), ?_⟩
  have := C58_keep_aspect im hi _ _ (natCast_pos hc) (natCast_pos hr)
  exact ⟨this.1, this.2.1⟩

/-! What does not hold, and a case of the hypotheses -/

/-- A 10 by 20 PNG image of 7559 pixels per metre (192 dots per inch). -/
def retinaPng : List UInt8 :=
  ({ samplePng with chunks := [{ type := ascii "pHYs", data := be32 7559 ++ be32 7559 ++ [1], crc := [0, 0, 0, 0] }] } : PngFile).bytes

def retinaImg : Img :=
  { kind := .png, width := 10, height := 20, widthDpi := 7559 * (254 / 10000), heightDpi := 7559 * (254 / 10000) }

theorem retina_reached : retinaImg.Reached := .read (data := retinaPng) (by decide +kernel)

/-- F111: `set_width` does not take the density into account: set to 100 pixels, an image of 192 dots
per inch is shown about 50 pixels wide. -/
theorem C58_set_width_counterexample :
    (retinaImg.setWidth 100).widthScaled < 51 ∧ (retinaImg.setScaleToSize 100 20 false).widthScaled = 100 := by
  constructor <;> decide +kernel

/-- F112: fitted to a cell of a hidden column, the image keeps its own size. -/
theorem C58_hidden_cell_counterexample :
    columnPx (fun _ => some { milli := 8430, hidden := true }) false 0 = 0 ∧
    (fitToCell retinaImg (fun _ => some { milli := 8430, hidden := true }) (fun _ => none) 15000 false 0 0 false)
      = retinaImg := by
  constructor <;> decide +kernel

end Verif
