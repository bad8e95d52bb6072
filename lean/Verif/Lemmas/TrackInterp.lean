import Verif.Spec.TrackInterp
import Verif.Props.Akima
/-!
Lemmas on interpolated tracks.
-/
namespace Tcrm.TrackInterp
open Tcrm.Akima (Increasing Covered getD_lt covered_iff)

theorem elapsed_hours {obs : List Obs} (h0 : obs ≠ []) (hs : ∀ o ∈ obs, o.date.second = 0) :
    HoursSinceFirst obs (elapsed obs) := by
  cases obs with
  | nil => exact absurd rfl h0
  | cons o rest =>
    refine ⟨o, rest, rfl, ?_⟩
    unfold elapsed
    refine List.map_congr_left ?_
    intro p hp
    have h1 := hs p hp
    have h2 := hs o (by simp)
    simp only [seconds, dayTime, h1, h2]
    push_cast
    ring

theorem elapsed_length (obs : List Obs) : (elapsed obs).length = obs.length := by
  cases obs <;> simp [elapsed]

theorem elapsed_head {obs : List Obs} (h0 : obs ≠ []) : (elapsed obs).getD 0 0 = 0 := by
  cases obs with
  | nil => exact absurd rfl h0
  | cons o rest => simp [elapsed]

/-- On an increasing table the entries below `t` are the first ones. -/
theorem count_below {x : List ℚ} (hx : Increasing x) (t : ℚ) {j : ℕ} (hj : j < x.length) :
    x.getD j 0 < t ↔ j < x.countP fun a => decide (a < t) := by
  unfold Increasing at hx
  induction x generalizing j with
  | nil => simp at hj
  | cons a rest ih =>
    obtain ⟨ha, hrest⟩ := List.pairwise_cons.1 hx
    by_cases hat : a < t
    · have e : (List.countP (fun a => decide (a < t)) (a :: rest)) = List.countP (fun a => decide (a < t)) rest + 1 := by
        simp [List.countP_cons, hat]
      rw [e]
      cases j with
      | zero => simp [hat]
      | succ j =>
        simp only [List.length_cons] at hj
        rw [List.getD_cons_succ, ih hrest (by omega)]
        omega
    · have e : (List.countP (fun a => decide (a < t)) (a :: rest)) = 0 := by
        rw [List.countP_eq_zero]
        intro b hb
        rcases List.mem_cons.1 hb with rfl | hb
        · simpa using hat
        · simpa using (not_lt.1 hat).trans (ha b hb).le
      rw [e]
      cases j with
      | zero => simpa using hat
      | succ j =>
        simp only [List.length_cons] at hj
        rw [List.getD_cons_succ, List.getD_eq_getElem _ _ (by omega : j < rest.length)]
        constructor
        · intro h; exact absurd ((ha _ (List.getElem_mem _)).trans h) hat
        · intro h; omega

/-- `lin` finds a point of the broken line wherever the table covers the time. -/
theorem lin_ok {x y : List ℚ} {t v : ℚ} (h : lin x y t = .ok v) (hx : Increasing x) (hn : 2 ≤ x.length)
    (hy : y.length = x.length) : OnLine x y t v := by
  unfold lin at h
  split_ifs at h with hr
  push Not at hr
  injection h with h
  set c := x.countP fun a => decide (a < t) with hc
  set hi := min (max c 1) (x.length - 1) with hhi
  have h1 : 1 ≤ hi := by omega
  have h2 : hi < x.length := by omega
  have below : ∀ j, j < x.length → (x.getD j 0 < t ↔ j < c) := fun j hj => count_below hx t hj
  have get : ∀ (l : List ℚ) (i : ℕ), i < l.length → l[i]? = some (l.getD i 0) := fun l i hi => by
    rw [List.getD_eq_getElem _ _ hi]; exact List.getElem?_eq_getElem hi
  have e : hi - 1 + 1 = hi := by omega
  refine ⟨hi - 1, _, _, _, _, get x (hi - 1) (by omega), by rw [e]; exact get x hi h2, get y (hi - 1) (by omega),
    by rw [e]; exact get y hi (by omega), ?_, ?_, ?_⟩
  · by_cases hc0 : c = 0
    · have : hi - 1 = 0 := by omega
      rw [this]
      exact hr.1
    · exact le_of_lt ((below (hi - 1) (by omega)).2 (by omega))
  · by_cases hcl : c < x.length
    · by_contra hcon
      push Not at hcon
      have := (below hi h2).1 hcon
      omega
    · have : hi = x.length - 1 := by omega
      rw [this]
      exact hr.2
  · have hd := getD_lt hx (show hi - 1 < hi by omega) h2
    have hd' : x.getD hi 0 - x.getD (hi - 1) 0 ≠ 0 := sub_ne_zero.2 hd.ne'
    rw [← h]
    field_simp
    ring

theorem linAll_ok {x y ts vs : List ℚ} (h : linAll x y ts = .ok vs) :
    vs.length = ts.length ∧ ∀ (i : ℕ) (t : ℚ), ts[i]? = some t → ∃ v, vs[i]? = some v ∧ lin x y t = .ok v := by
  induction ts generalizing vs with
  | nil =>
    injection h with h
    subst h
    exact ⟨rfl, fun i t ht => by simp at ht⟩
  | cons t ts ih =>
    unfold linAll at h
    split at h
    · exact absurd h (by simp)
    rename_i v hv
    split at h
    · exact absurd h (by simp)
    rename_i vs' hvs
    injection h with h
    subst h
    obtain ⟨hl, hi⟩ := ih hvs
    refine ⟨by simp [hl], ?_⟩
    intro i s hs
    cases i with
    | zero =>
      simp only [List.getElem?_cons_zero, Option.some.injEq] at hs
      subst hs
      exact ⟨v, by simp, hv⟩
    | succ i =>
      simp only [List.getElem?_cons_succ] at hs ⊢
      exact hi i s hs

theorem linAll_total {x y ts : List ℚ} (h : ∀ t ∈ ts, x.getD 0 0 ≤ t ∧ t ≤ x.getD (x.length - 1) 0) :
    ∃ vs, linAll x y ts = .ok vs := by
  induction ts with
  | nil => exact ⟨[], rfl⟩
  | cons t ts ih =>
    obtain ⟨vs, hvs⟩ := ih (fun s hs => h s (List.mem_cons_of_mem _ hs))
    have ht := h t (by simp)
    have : ¬ (t < x.getD 0 0 ∨ x.getD (x.length - 1) 0 < t) := by
      push Not
      exact ht
    unfold linAll
    rw [hvs]
    simp only [lin, if_neg this]
    exact ⟨_, rfl⟩

/-- On an increasing table a time determines the value. -/
theorem OnLine.unique {x y : List ℚ} (hx : Increasing x) {t v w : ℚ} (h1 : OnLine x y t v) (h2 : OnLine x y t w) : v = w := by
  obtain ⟨k, a, b, p, q, ka, kb, kp, kq, hat, htb, e⟩ := h1
  obtain ⟨l, a', b', p', q', la, lb, lp, lq, hat', htb', e'⟩ := h2
  have lt : ∀ (i j : ℕ) (u w : ℚ), x[i]? = some u → x[j]? = some w → i < j → u < w := by
    intro i j u w hu hw hij
    obtain ⟨hi, rfl⟩ := List.getElem?_eq_some_iff.1 hu
    obtain ⟨hj, rfl⟩ := List.getElem?_eq_some_iff.1 hw
    exact List.pairwise_iff_getElem.1 hx i j hi hj hij
  have hab := lt _ _ _ _ ka kb (Nat.lt_succ_self k)
  have hab' := lt _ _ _ _ la lb (Nat.lt_succ_self l)
  rcases lt_trichotomy k l with hkl | rfl | hkl
  · -- then t is the node b = a'
    rcases (Nat.succ_le_of_lt hkl).eq_or_lt with h | h
    · have e1 : b = a' := by
        rw [Nat.succ_eq_add_one] at h
        rw [h] at kb
        exact Option.some.inj (kb.symm.trans la)
      have e2 : q = p' := by
        rw [Nat.succ_eq_add_one] at h
        rw [h] at kq
        exact Option.some.inj (kq.symm.trans lp)
      have et : t = b := le_antisymm htb (e1 ▸ hat')
      subst et
      have h3 : v = q := by
        have : (v - q) * (t - a) = 0 := by linarith [e]
        rcases mul_eq_zero.1 this with h | h <;> linarith
      have h4 : w = p' := by
        rw [← e1] at e'
        have : (w - p') * (b' - t) = 0 := by rw [e']; ring
        rcases mul_eq_zero.1 this with h | h <;> linarith
      rw [h3, h4, e2]
    · have := lt _ _ _ _ kb la h
      linarith
  · obtain rfl := Option.some.inj (ka.symm.trans la)
    obtain rfl := Option.some.inj (kb.symm.trans lb)
    obtain rfl := Option.some.inj (kp.symm.trans lp)
    obtain rfl := Option.some.inj (kq.symm.trans lq)
    have : (v - w) * (b - a) = 0 := by linarith
    rcases mul_eq_zero.1 this with h | h <;> linarith
  · rcases (Nat.succ_le_of_lt hkl).eq_or_lt with h | h
    · have e1 : b' = a := by
        rw [Nat.succ_eq_add_one] at h
        rw [h] at lb
        exact Option.some.inj (lb.symm.trans ka)
      have e2 : q' = p := by
        rw [Nat.succ_eq_add_one] at h
        rw [h] at lq
        exact Option.some.inj (lq.symm.trans kp)
      have et : t = b' := le_antisymm htb' (e1 ▸ hat)
      subst et
      have h3 : w = q' := by
        have : (w - q') * (t - a') = 0 := by linarith [e']
        rcases mul_eq_zero.1 this with h | h <;> linarith
      have h4 : v = p := by
        rw [← e1] at e
        have : (v - p) * (b - t) = 0 := by rw [e]; ring
        rcases mul_eq_zero.1 this with h | h <;> linarith
      rw [h3, h4, e2]
    · have := lt _ _ _ _ lb ka h
      linarith

/-- The points of the table are on the line. -/
theorem OnLine.node {x y : List ℚ} (hn : 2 ≤ x.length) (hy : y.length = x.length) (hx : Increasing x) {k : ℕ} {t p : ℚ}
    (hk : x[k]? = some t) (hp : y[k]? = some p) : OnLine x y t p := by
  have hkl := (List.getElem?_eq_some_iff.1 hk).1
  have lt : ∀ (i j : ℕ) (u w : ℚ), x[i]? = some u → x[j]? = some w → i < j → u < w := by
    intro i j u w hu hw hij
    obtain ⟨hi, rfl⟩ := List.getElem?_eq_some_iff.1 hu
    obtain ⟨hj, rfl⟩ := List.getElem?_eq_some_iff.1 hw
    exact List.pairwise_iff_getElem.1 hx i j hi hj hij
  by_cases hl : k + 1 < x.length
  · refine ⟨k, t, x[k + 1], p, y[k + 1], hk, List.getElem?_eq_getElem hl, hp, List.getElem?_eq_getElem (by omega),
      le_refl _, ?_, by ring⟩
    exact (lt _ _ _ _ hk (List.getElem?_eq_getElem hl) (by omega)).le
  · obtain ⟨j, rfl⟩ : ∃ j, k = j + 1 := ⟨k - 1, by omega⟩
    refine ⟨j, x[j], t, y[j], p, List.getElem?_eq_getElem (by omega), hk, List.getElem?_eq_getElem (by omega), hp,
      ?_, le_refl _, by ring⟩
    exact (lt _ _ _ _ (List.getElem?_eq_getElem (by omega)) hk (by omega)).le

theorem legs_length (leg : ℚ × ℚ → ℚ × ℚ → ℚ × ℚ) (pts : List (ℚ × ℚ)) : (legs leg pts).length = pts.length - 1 := by
  induction pts with
  | nil => rfl
  | cons a rest ih =>
    cases rest with
    | nil => rfl
    | cons b rest => simp only [legs, List.length_cons] at ih ⊢; omega

theorem legs_get (leg : ℚ × ℚ → ℚ × ℚ → ℚ × ℚ) (pts : List (ℚ × ℚ)) (i : ℕ) (a b : ℚ × ℚ) (ha : pts[i]? = some a)
    (hb : pts[i + 1]? = some b) : (legs leg pts)[i]? = some (leg a b) := by
  induction pts generalizing i with
  | nil => simp at ha
  | cons c rest ih =>
    cases rest with
    | nil => simp at hb
    | cons d rest =>
      cases i with
      | zero =>
        simp only [List.getElem?_cons_zero, Option.some.injEq] at ha
        simp only [Nat.zero_add, List.getElem?_cons_succ, List.getElem?_cons_zero, Option.some.injEq] at hb
        subst ha hb
        rfl
      | succ i =>
        simp only [legs, List.getElem?_cons_succ] at ha hb ⊢
        exact ih i ha hb

theorem motion_length (leg : ℚ × ℚ → ℚ × ℚ → ℚ × ℚ) (δ : ℚ) (obs : List Obs) (pts : List (ℚ × ℚ)) :
    (motion leg δ obs pts).length = pts.length := by
  unfold motion
  split
  · rename_i l hl
    have : legs leg pts ≠ [] := by intro h; rw [h] at hl; simp at hl
    have hp := List.length_pos_iff.2 this
    have := legs_length leg pts
    simp only [List.length_map, List.length_append, List.length_singleton]
    omega
  · simp

theorem assemble_get : ∀ (ts xs ys : List ℚ) (ms : List (ℚ × ℚ)) (ps ws rs es : List ℚ) (i : ℕ) (r : Rec),
    (assemble ts xs ys ms ps ws rs es)[i]? = some r →
      ts[i]? = some r.time ∧ xs[i]? = some r.lon ∧ ys[i]? = some r.lat ∧ ms[i]? = some (r.bearing, r.speed) ∧
      ps[i]? = some r.pressure ∧ ws[i]? = some r.wind ∧ rs[i]? = some r.rmax ∧ es[i]? = some r.penv := by
  intro ts
  induction ts with
  | nil => intro xs ys ms ps ws rs es i r h; simp [assemble] at h
  | cons t ts ih =>
    intro xs ys ms ps ws rs es i r h
    match xs, ys, ms, ps, ws, rs, es, h with
    | x :: xs, y :: ys, m :: ms, p :: ps, w :: ws, r' :: rs, e :: es, h =>
      cases i with
      | zero =>
        simp only [assemble, List.getElem?_cons_zero, Option.some.injEq] at h
        subst h
        simp
      | succ i =>
        simp only [assemble, List.getElem?_cons_succ] at h ⊢
        exact ih xs ys ms ps ws rs es i r h
    | [], _, _, _, _, _, _, h => simp [assemble] at h
    | _ :: _, [], _, _, _, _, _, h => simp [assemble] at h
    | _ :: _, _ :: _, [], _, _, _, _, h => simp [assemble] at h
    | _ :: _, _ :: _, _ :: _, [], _, _, _, h => simp [assemble] at h
    | _ :: _, _ :: _, _ :: _, _ :: _, [], _, _, h => simp [assemble] at h
    | _ :: _, _ :: _, _ :: _, _ :: _, _ :: _, [], _, h => simp [assemble] at h
    | _ :: _, _ :: _, _ :: _, _ :: _, _ :: _, _ :: _, [], h => simp [assemble] at h

theorem assemble_length : ∀ (ts xs ys : List ℚ) (ms : List (ℚ × ℚ)) (ps ws rs es : List ℚ),
    xs.length = ts.length → ys.length = ts.length → ms.length = ts.length → ps.length = ts.length →
    ws.length = ts.length → rs.length = ts.length → es.length = ts.length →
    (assemble ts xs ys ms ps ws rs es).length = ts.length := by
  intro ts
  induction ts with
  | nil => intros; simp [assemble]
  | cons t ts ih =>
    intro xs ys ms ps ws rs es h1 h2 h3 h4 h5 h6 h7
    match xs, ys, ms, ps, ws, rs, es with
    | x :: xs, y :: ys, m :: ms, p :: ps, w :: ws, r' :: rs, e :: es =>
      simp only [List.length_cons, Nat.add_right_cancel_iff] at h1 h2 h3 h4 h5 h6 h7
      simp only [assemble, List.length_cons, ih xs ys ms ps ws rs es h1 h2 h3 h4 h5 h6 h7]
    | [], _, _, _, _, _, _ => simp at h1
    | _ :: _, [], _, _, _, _, _ => simp at h2
    | _ :: _, _ :: _, [], _, _, _, _ => simp at h3
    | _ :: _, _ :: _, _ :: _, [], _, _, _ => simp at h4
    | _ :: _, _ :: _, _ :: _, _ :: _, [], _, _ => simp at h5
    | _ :: _, _ :: _, _ :: _, _ :: _, _ :: _, [], _ => simp at h6
    | _ :: _, _ :: _, _ :: _, _ :: _, _ :: _, _ :: _, [] => simp at h7

theorem between_length {v : List (ℚ × ℚ)} {a b : ℚ × ℚ} {ts vs : List ℚ} (h : between v a b ts = .ok vs) :
    vs.length = ts.length := by
  unfold between at h
  split at h
  · exact absurd h (by simp)
  split at h
  · exact absurd h (by simp)
  split_ifs at h
  · injection h with h
    subst h
    simp
  · split at h
    · exact absurd h (by simp)
    split at h
    · exact absurd h (by simp)
    injection h with h
    subst h
    simp

theorem intensity_length {x : List ℚ} {obs : List Obs} {col : Obs → ℚ} {ts vs : List ℚ}
    (h : intensity x obs col ts = .ok vs) : vs.length = ts.length := by
  unfold intensity at h
  split at h
  · injection h with h
    subst h
    simp
  · injection h with h
    subst h
    simp
  · split_ifs at h
    · exact (linAll_ok h).1
    · exact between_length h

theorem positions_length {kind : Kind} (hk : kind.Full) {x y ts vs : List ℚ} (h : positions kind x y ts = .ok vs) :
    vs.length = ts.length := by
  unfold positions at h
  split_ifs at h
  · exact (linAll_ok h).1
  · cases kind with
    | linear => exact (linAll_ok h).1
    | akima =>
      simp only at h
      split at h
      · exact absurd h (by simp)
      · rename_i zs hz
        injection h with h
        subst h
        exact (Akima.C91_observed hz).1
    | spline f =>
      injection h with h
      subst h
      exact hk x y ts

/-- The parts of a successful interpolation. -/
structure PartsOn (leg : ℚ × ℚ → ℚ × ℚ → ℚ × ℚ) (kind : Kind) (x : List ℚ) (obs : List Obs) (δ : ℚ) (recs : List Rec)
    (ts xs ys ps ws es rs : List ℚ) : Prop where
  lons : positions kind x (obs.map (·.lon)) ts = .ok xs
  lats : positions kind x (obs.map (·.lat)) ts = .ok ys
  pres : intensity x obs (·.pressure) ts = .ok ps
  wind : intensity x obs (·.wind) ts = .ok ws
  penv : linAll x (obs.map (·.penv)) ts = .ok es
  rmax : linAll x (obs.map (·.rmax)) ts = .ok rs
  recs : recs = assemble ts xs ys (motion leg δ obs (xs.zip ys)) (ps.map maskPressure) ws rs es

/-- The parts of a successful interpolation, with the new times. -/
structure Parts (leg : ℚ × ℚ → ℚ × ℚ → ℚ × ℚ) (kind : Kind) (x : List ℚ) (obs : List Obs) (δ : ℚ) (recs : List Rec)
    (ts xs ys ps ws es rs : List ℚ) : Prop extends PartsOn leg kind x obs δ recs ts xs ys ps ws es rs where
  times : newTimes (x.getLast?.getD 0) δ = .ok ts

theorem parts_on {leg : ℚ × ℚ → ℚ × ℚ → ℚ × ℚ} {kind : Kind} {x : List ℚ} {obs : List Obs} {δ : ℚ} {recs : List Rec} {ts : List ℚ}
    (h : interpolateOn leg kind x obs δ ts = .ok recs) :
    ∃ xs ys ps ws es rs, PartsOn leg kind x obs δ recs ts xs ys ps ws es rs := by
  unfold interpolateOn at h
  split at h
  · exact absurd h (by simp)
  rename_i xs h2
  split at h
  · exact absurd h (by simp)
  rename_i ys h3
  split at h
  · exact absurd h (by simp)
  rename_i ps h4
  split at h
  · exact absurd h (by simp)
  rename_i ws h5
  split at h
  · exact absurd h (by simp)
  rename_i es h6
  split at h
  · exact absurd h (by simp)
  rename_i rs h7
  injection h with h
  exact ⟨xs, ys, ps, ws, es, rs, h2, h3, h4, h5, h6, h7, h.symm⟩

theorem parts_at {leg : ℚ × ℚ → ℚ × ℚ → ℚ × ℚ} {kind : Kind} {x : List ℚ} {obs : List Obs} {δ : ℚ} {recs : List Rec}
    (h : interpolateAt leg kind x obs δ = .ok recs) :
    ∃ ts xs ys ps ws es rs, Parts leg kind x obs δ recs ts xs ys ps ws es rs := by
  unfold interpolateAt at h
  split at h
  · exact absurd h (by simp)
  rename_i ts h1
  obtain ⟨xs, ys, ps, ws, es, rs, p⟩ := parts_on h
  exact ⟨ts, xs, ys, ps, ws, es, rs, p, h1⟩

theorem interpolate_parts {leg : ℚ × ℚ → ℚ × ℚ → ℚ × ℚ} {kind : Kind} {obs : List Obs} {δ : ℚ} {recs : List Rec}
    (h : interpolate leg kind obs δ = .ok recs) :
    ∃ ts xs ys ps ws es rs, Parts leg kind (elapsed obs) obs δ recs ts xs ys ps ws es rs := parts_at h

theorem PartsOn.length {leg : ℚ × ℚ → ℚ × ℚ → ℚ × ℚ} {kind : Kind} (hk : kind.Full) {x : List ℚ} {obs : List Obs} {δ : ℚ}
    {recs : List Rec} {ts xs ys ps ws es rs : List ℚ} (p : PartsOn leg kind x obs δ recs ts xs ys ps ws es rs) :
    recs.length = ts.length := by
  have h1 := positions_length hk p.lons
  have h2 := positions_length hk p.lats
  have h3 := motion_length leg δ obs (xs.zip ys)
  rw [p.recs]
  refine assemble_length _ _ _ _ _ _ _ _ h1 h2 ?_ ?_ (intensity_length p.wind) (linAll_ok p.rmax).1 (linAll_ok p.penv).1
  · rw [h3, List.length_zip]; omega
  · rw [List.length_map]; exact intensity_length p.pres

theorem PartsOn.get {leg : ℚ × ℚ → ℚ × ℚ → ℚ × ℚ} {kind : Kind} {x : List ℚ} {obs : List Obs} {δ : ℚ}
    {recs : List Rec} {ts xs ys ps ws es rs : List ℚ} (p : PartsOn leg kind x obs δ recs ts xs ys ps ws es rs) {i : ℕ} {r : Rec}
    (h : recs[i]? = some r) : ts[i]? = some r.time ∧ xs[i]? = some r.lon ∧ ys[i]? = some r.lat ∧
      (motion leg δ obs (xs.zip ys))[i]? = some (r.bearing, r.speed) ∧
      (ps.map maskPressure)[i]? = some r.pressure ∧ ws[i]? = some r.wind ∧ rs[i]? = some r.rmax ∧ es[i]? = some r.penv := by
  rw [p.recs] at h
  exact assemble_get _ _ _ _ _ _ _ _ i r h

theorem PartsOn.map_time {leg : ℚ × ℚ → ℚ × ℚ → ℚ × ℚ} {kind : Kind} (hk : kind.Full) {x : List ℚ} {obs : List Obs} {δ : ℚ}
    {recs : List Rec} {ts xs ys ps ws es rs : List ℚ} (p : PartsOn leg kind x obs δ recs ts xs ys ps ws es rs) :
    recs.map (·.time) = ts := by
  have hl := p.length hk
  refine List.ext_getElem? ?_
  intro i
  by_cases hi : i < recs.length
  · have h := List.getElem?_eq_getElem hi
    rw [List.getElem?_map, h, Option.map_some]
    exact (p.get h).1.symm
  · rw [List.getElem?_eq_none (by simpa using hi), List.getElem?_eq_none (by omega)]

/-- The last element of the filtered range. -/
theorem last_filter {n : ℕ} {q : ℕ → Bool} {m : ℕ} (h : ((List.range n).filter q).getLast? = some m) :
    m < n ∧ q m = true ∧ ∀ j, m < j → j < n → q j = false := by
  induction n with
  | zero => simp at h
  | succ n ih =>
    rw [List.range_succ, List.filter_append] at h
    by_cases hq : q n = true
    · rw [List.filter_cons_of_pos hq, List.filter_nil, List.getLast?_concat] at h
      injection h with h
      subst h
      exact ⟨Nat.lt_succ_self _, hq, fun j h1 h2 => by omega⟩
    · rw [List.filter_cons_of_neg hq, List.filter_nil, List.append_nil] at h
      obtain ⟨h1, h2, h3⟩ := ih h
      refine ⟨by omega, h2, ?_⟩
      intro j hj hj'
      by_cases e : j = n
      · subst e; simpa using hq
      · exact h3 j hj (by omega)

theorem lt_of_getElem? {l : List ℚ} {i : ℕ} {t : ℚ} (h : l[i]? = some t) : i < l.length :=
  (List.getElem?_eq_some_iff.1 h).1

theorem inc_get {x : List ℚ} (hx : Increasing x) {i j : ℕ} {u w : ℚ} (hu : x[i]? = some u) (hw : x[j]? = some w) :
    u < w ↔ i < j := by
  obtain ⟨hi, rfl⟩ := List.getElem?_eq_some_iff.1 hu
  obtain ⟨hj, rfl⟩ := List.getElem?_eq_some_iff.1 hw
  have key := List.pairwise_iff_getElem.1 hx
  constructor
  · intro h
    by_contra hc
    rcases (not_lt.1 hc).eq_or_lt with e | e
    · subst e; exact lt_irrefl _ h
    · exact lt_asymm h (key j i hj hi e)
  · exact key i j hi hj

/-- What `between` computes: nothing outside the known times; on the line where the next time is known too. -/
theorem between_spec {v : List (ℚ × ℚ)} {a b : ℚ × ℚ} {ts vs : List ℚ} (hts : Increasing ts)
    (h : between v a b ts = .ok vs) {i : ℕ} {t : ℚ} (ht : ts[i]? = some t) :
    (t < a.1 ∨ b.1 < t → vs[i]? = some 0) ∧
    (∀ t', ts[i + 1]? = some t' → a.1 ≤ t → t' ≤ b.1 →
      ∃ w, vs[i]? = some w ∧ lin (v.map (·.1)) (v.map (·.2)) t = .ok w) ∧
    (∀ t', ts[i + 1]? = some t' → a.1 ≤ t → t' ≤ b.1 → (∀ t'', ts[i + 2]? = some t'' → b.1 < t'') →
      vs[i + 1]? = vs[i]?) := by
  unfold between at h
  split at h
  · exact absurd h (by simp)
  rename_i first hf
  obtain ⟨hfl, hf1, hf2⟩ := List.findIdx?_eq_some_iff_getElem.1 hf
  simp only [decide_eq_true_eq] at hf1
  simp only [decide_eq_true_eq, Bool.not_eq_true, decide_eq_false_iff_not, not_le] at hf2
  split at h
  · exact absurd h (by simp)
  rename_i last hlast
  obtain ⟨hll, hl1, hl2⟩ := last_filter hlast
  simp only [decide_eq_true_eq] at hl1
  simp only [decide_eq_false_iff_not, not_le] at hl2
  have hil := lt_of_getElem? ht
  have hti : ts[i] = t := (List.getElem?_eq_some_iff.1 ht).2
  rw [List.getD_eq_getElem _ _ hll] at hl1
  -- position of `i`
  have A : a.1 ≤ t ↔ first ≤ i := by
    constructor
    · intro hat
      by_contra hc
      have := hf2 i (by omega)
      rw [hti] at this
      linarith
    · intro hfi
      rcases hfi.eq_or_lt with rfl | hfi
      · rw [← hti]; exact hf1
      · have := (inc_get hts (List.getElem?_eq_getElem hfl) ht).2 hfi
        linarith
  have B : ∀ j s, ts[j]? = some s → (s ≤ b.1 ↔ j ≤ last) := by
    intro j s hs
    have hj := lt_of_getElem? hs
    constructor
    · intro hsb
      by_contra hc
      have := hl2 j (by omega) hj
      rw [List.getD_eq_getElem _ _ hj, (List.getElem?_eq_some_iff.1 hs).2] at this
      linarith
    · intro hjl
      rcases hjl.eq_or_lt with rfl | hjl
      · rw [← (List.getElem?_eq_some_iff.1 hs).2]; exact hl1
      · have := (inc_get hts hs (List.getElem?_eq_getElem hll)).2 hjl
        linarith
  split_ifs at h with hfe
  · injection h with h
    subst h
    refine ⟨?_, ?_, ?_⟩
    · intro hout
      have : i ≠ first := by
        rintro rfl
        rcases hout with h1 | h1
        · exact absurd (A.2 (le_refl _)) (not_le.2 h1)
        · exact absurd ((B i t ht).2 (by omega)) (not_le.2 h1)
      rw [List.getElem?_map, List.getElem?_range hil, Option.map_some, if_neg this]
    · intro t' ht' hat htb
      have := A.1 hat
      have := (B _ _ ht').1 htb
      omega
    · intro t' ht' hat htb
      have := A.1 hat
      have := (B _ _ ht').1 htb
      omega
  · split at h
    · exact absurd h (by simp)
    rename_i us hus
    split at h
    · exact absurd h (by simp)
    rename_i w hw
    injection h with h
    obtain ⟨ul, ug⟩ := linAll_ok hus
    have hne : us ≠ [] := by rintro rfl; simp at hw
    have hpos := List.length_pos_iff.2 hne
    rw [ul, List.length_drop, List.length_take] at hpos
    have hfl' : first < last := by omega
    subst h
    refine ⟨?_, ?_, ?_⟩
    · intro hout
      have h1 : i ≠ last := by
        rintro rfl
        rcases hout with h1 | h1
        · exact absurd (A.2 (by omega)) (not_le.2 h1)
        · exact absurd ((B i t ht).2 (by omega)) (not_le.2 h1)
      have h2 : ¬ (first ≤ i ∧ i < last) := by
        rintro ⟨h2, h3⟩
        rcases hout with h1 | h1
        · exact absurd (A.2 h2) (not_le.2 h1)
        · exact absurd ((B i t ht).2 (by omega)) (not_le.2 h1)
      rw [List.getElem?_map, List.getElem?_range hil, Option.map_some, if_neg h1, if_neg h2]
    · intro t' ht' hat htb
      have h1 := A.1 hat
      have h2 := (B _ _ ht').1 htb
      have h3 : ((ts.take last).drop first)[i - first]? = some t := by
        rw [List.getElem?_drop, List.getElem?_take, if_pos (by omega), show first + (i - first) = i by omega, ht]
      obtain ⟨u, hu, hlin⟩ := ug _ _ h3
      refine ⟨u, ?_, hlin⟩
      rw [List.getElem?_map, List.getElem?_range hil, Option.map_some, if_neg (by omega), if_pos ⟨h1, by omega⟩,
        List.getD_eq_getElem?_getD, hu]
      rfl
    · intro t' ht' hat htb hend
      have h1 := A.1 hat
      have h2 := (B _ _ ht').1 htb
      have hil' := lt_of_getElem? ht'
      have e : last = i + 1 := by
        by_contra hc
        have h4 : i + 2 < ts.length := by omega
        have := hend _ (List.getElem?_eq_getElem h4)
        have := (B _ _ (List.getElem?_eq_getElem h4)).2 (by omega)
        linarith
      have e2 : us.getD (i - first) 0 = w := by
        rw [List.getLast?_eq_getElem?, ul, List.length_drop, List.length_take] at hw
        rw [List.getD_eq_getElem?_getD]
        rw [show min last ts.length - first - 1 = i - first by omega] at hw
        rw [hw]
        rfl
      rw [List.getElem?_map, List.getElem?_map, List.getElem?_range hil, List.getElem?_range hil', Option.map_some,
        Option.map_some, if_pos e.symm, if_neg (by omega), if_pos ⟨h1, by omega⟩, e2]

end Tcrm.TrackInterp
