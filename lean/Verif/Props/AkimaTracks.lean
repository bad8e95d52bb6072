import Verif.Props.AkimaC
import Verif.Props.TrackInterp
/-!
C176 (compiled interpolation of positions): interpolated tracks.
-/
namespace Tcrm.AkimaC
open Tcrm.TrackInterp (Obs Rec Kind HoursSinceFirst)
open Tcrm.Akima (Increasing)

/-- The compiled interpolation as the method for positions. (Where it raises the result is not used.) -/
def compiled (aX aY : ℕ → ℚ) : Kind :=
  .spline fun x y ts => match pyInterpolate aX aY x y ts with
    | .ok zs => zs
    | .error _ => ts.map fun _ => 0

theorem scan_length (si : ℕ) (x : ℕ → ℚ) (p : List (ℚ × ℚ × ℚ)) (p3 : List ℚ) : ∀ (ts : List ℚ) (k : ℕ),
    (scan si x p p3 k ts).length = ts.length
  | [], _ => rfl
  | t :: ts, k => by simp only [scan, List.length_cons, scan_length si x p p3 ts]

theorem pyInterpolate_length {aX aY : ℕ → ℚ} {x y ts zs : List ℚ} (h : pyInterpolate aX aY x y ts = .ok zs) :
    zs.length = ts.length := by
  unfold pyInterpolate at h
  split_ifs at h
  split at h
  · exact nomatch h
  rename_i z hz
  injection h with h
  subst h
  unfold interpolate at hz
  split at hz
  · exact nomatch hz
  injection hz with hz
  rw [← hz, scan_length]

theorem compiled_full (aX aY : ℕ → ℚ) : (compiled aX aY).Full := by
  intro x y ts
  beta_reduce
  split
  · rename_i zs hz
    exact pyInterpolate_length hz
  · exact List.length_map _

/-- C176: a track of more than three observations interpolated with the compiled code is where it was observed at the
time of an observation; and its new positions are one motion's at the new times (those of `C176_akima`). -/
theorem C176_tracks {leg : ℚ × ℚ → ℚ × ℚ → ℚ × ℚ} {aX aY : ℕ → ℚ} {obs : List Obs} {δ : ℚ} {recs : List Rec} {x : List ℚ}
    (h : TrackInterp.interpolate leg (compiled aX aY) obs δ = .ok recs) (hs : ∀ o ∈ obs, o.date.second = 0)
    (hx : HoursSinceFirst obs x) (ha : Apart x) (h4 : 4 ≤ obs.length) (hδ : 1 / 100 ≤ δ) :
    pyInterpolate aX aY x (obs.map (·.lon)) (recs.map (·.time)) = .ok (recs.map (·.lon)) ∧
    pyInterpolate aX aY x (obs.map (·.lat)) (recs.map (·.time)) = .ok (recs.map (·.lat)) ∧
    ∀ (r : Rec) (k : ℕ) (o : Obs), r ∈ recs → obs[k]? = some o → x[k]? = some r.time → r.lon = o.lon ∧ r.lat = o.lat := by
  have hinc := apart_increasing ha
  have hl := TrackInterp.hours_length hx
  obtain ⟨T, hT⟩ : ∃ T, x.getLast? = some T := by
    cases hg : x.getLast? with
    | none => rw [List.getLast?_eq_none_iff] at hg; rw [hg] at hl; simp at hl; omega
    | some T => exact ⟨T, rfl⟩
  obtain ⟨ts, xs, ys, ps, ws, es, rs, p⟩ := TrackInterp.interpolate_parts h
  have ht := p.times
  have hT0 := TrackInterp.last_nonneg hx hinc hT
  have htl := ht
  rw [← TrackInterp.hours_elapsed hs hx, hT, Option.getD_some] at htl
  have hsorted : ts.Pairwise (· ≤ ·) := (TrackInterp.newTimes_spec hT0 hδ htl).2.2.1.imp le_of_lt
  have hk := compiled_full aX aY
  have hrec := p.length hk
  have htime := p.map_time hk
  have hxe := TrackInterp.hours_elapsed hs hx
  have key : ∀ {y vs : List ℚ}, y.length = obs.length → TrackInterp.positions (compiled aX aY) x y ts = .ok vs →
      pyInterpolate aX aY x y ts = .ok vs := by
    intro y vs hy h
    obtain ⟨zs, hz⟩ := (C176_succeeds aX aY x y ts).2 ⟨by omega, by omega, ha⟩
    unfold TrackInterp.positions compiled at h
    rw [if_neg (by omega)] at h
    simp only [hz] at h
    rw [hz]
    injection h with h
    rw [h]
  have hlon := p.lons
  have hlat := p.lats
  rw [← hxe] at hlon hlat
  have klon := key (by simp) hlon
  have klat := key (by simp) hlat
  have col : ∀ {f : Rec → ℚ} {vs : List ℚ}, vs.length = ts.length → (∀ (i : ℕ) (r : Rec), recs[i]? = some r → vs[i]? = some (f r)) →
      vs = recs.map f := by
    intro f vs hvs hf
    refine List.ext_getElem? fun i => ?_
    rw [List.getElem?_map]
    by_cases hi : i < recs.length
    · have h := List.getElem?_eq_getElem hi
      rw [h, Option.map_some]
      exact hf i _ h
    · rw [List.getElem?_eq_none (by omega), List.getElem?_eq_none (by omega)]; rfl
  have elon := col (pyInterpolate_length klon) fun i r h => (p.get h).2.1
  have elat := col (pyInterpolate_length klat) fun i r h => (p.get h).2.2.1
  rw [htime, ← elon, ← elat]
  refine ⟨klon, klat, ?_⟩
  intro r k o hr ho hkx
  obtain ⟨i, hi⟩ := List.getElem?_of_mem hr
  obtain ⟨g1, g2, g3, -⟩ := p.get hi
  have f1 := (C176_observed klon hsorted).2 i k r.time o.lon g1 hkx (by rw [List.getElem?_map, ho]; rfl)
  have f2 := (C176_observed klat hsorted).2 i k r.time o.lat g1 hkx (by rw [List.getElem?_map, ho]; rfl)
  rw [g2] at f1
  rw [g3] at f2
  exact ⟨by injection f1, by injection f2⟩

/-- The track of the examples on C93, with the compiled code; the hypotheses of the theorem are met. -/
example : (match TrackInterp.interpolate TrackInterp.exLeg (compiled (fun _ => 7) fun _ => -3) TrackInterp.exTrack 3 with
    | .ok recs => recs.map fun r => (r.time, r.lon, r.lat)
    | .error _ => []) =
    [(0, 150, -10), (3, 301/2, -10), (6, 151, -10), (9, 303/2, -10), (12, 152, -10), (15, 2435/16, -165/16), (18, 152, -11)] ∧
    HoursSinceFirst TrackInterp.exTrack [0, 6, 12, 18] ∧ Apart ([0, 6, 12, 18] : List ℚ) ∧
    (∀ o ∈ TrackInterp.exTrack, o.date.second = 0) ∧ 4 ≤ TrackInterp.exTrack.length := by
  refine ⟨by decide +kernel, TrackInterp.exTrack_hours, ?_, by decide +kernel, by decide⟩
  rw [apart_iff]
  have : ∀ i < 3, (1 : ℚ) / 1000000000000 ≤ [(0 : ℚ), 6, 12, 18].getD (i + 1) 0 - [(0 : ℚ), 6, 12, 18].getD i 0 := by
    decide +kernel
  exact fun i hi => this i (by simp at hi; omega)

end Tcrm.AkimaC
