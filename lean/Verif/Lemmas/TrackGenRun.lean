import Verif.Lemmas.TrackGen
import Verif.Lemmas.Balanced
namespace Tcrm.TrackGen
open Tcrm.Cells

variable {G N : Type}

/-- Inversion of a successful sampling of genesis conditions. -/
theorem sampleGenesis_ok (R : Rng G) (env : Env N) (fuel : ℕ) (init : Init) (year : ℤ)
    (w w1 : W G N) (gen : Genesis) (h : sampleGenesis R env fuel init year w = .ok (gen, w1)) :
    ∃ g1 cell g2 g3 g4 g5,
      genesisPoint R env init w.g = .ok (gen.lon, gen.lat, g1) ∧
      getCellNum gen.lon gen.lat env.gl env.gs = .ok cell ∧
      sampleOr R init.bearing (env.cdfBearing cell) g1 = .ok (gen.bearing, g2) ∧
      sampleOr R init.speed (env.cdfSpeed cell) g2 = .ok (gen.speed, g3) ∧
      sampleOr R init.day (env.cdfDay cell) g3 = .ok (gen.day, g4) ∧
      gen.envPressure = (match truthy w.envP with
        | some p => p
        | none => env.envPressure gen.day gen.lat gen.lon) ∧
      genesisPressure R init.pressure (env.cdfPressure cell) gen.envPressure g5 =
        .ok (gen.pressure, w1.g) ∧
      genesisRmax env fuel init.rmax w.rmwEps (gen.envPressure - gen.pressure) gen.lat w.n =
        .ok (gen.rmax, w1.rmwEps, w1.n) ∧
      w1.envP = some gen.envPressure := by
  simp only [sampleGenesis, bind, Except.bind] at h
  split at h
  · simp at h
  rename_i v1 h1
  obtain ⟨lon, lat, g1⟩ := v1
  simp only at h
  split at h
  · simp at h
  rename_i cell h2
  split at h
  · simp at h
  rename_i v3 h3
  split at h
  · simp at h
  rename_i v4 h4
  split at h
  · simp at h
  rename_i v5 h5
  split at h
  · simp at h
  rename_i v6 h6
  split at h
  · simp at h
  rename_i v7 h7
  split at h
  · simp at h
  rename_i v8 h8
  simp only [pure, Except.pure, Except.ok.injEq, Prod.mk.injEq] at h
  obtain ⟨rfl, rfl⟩ := h
  have h2' : getCellNum lon lat env.gl env.gs = .ok cell := by
    cases hc : getCellNum lon lat env.gl env.gs with
    | error e => rw [hc] at h2; simp [Except.mapError] at h2
    | ok c => rw [hc] at h2; simp [Except.mapError] at h2; rw [h2]
  exact ⟨g1, cell, v3.2, v4.2, v5.2, _, h1, h2', h3, h4, h5, rfl, h7, h8, rfl⟩

/-- `Rn` relates states of the global generator that give the same variates. -/
def Sim (env : Env N) (Rn : N → N → Prop) : Prop :=
  ∀ s n n', Rn n n' → (env.npNormal s n).1 = (env.npNormal s n').1 ∧
    Rn (env.npNormal s n).2 (env.npNormal s n').2

theorem drawRmax_rel (env : Env N) (Rn : N → N → Prop) (hR : Sim env Rn) (dp lat : ℚ)
    (fuel fuel' : ℕ) (hf : fuel ≤ fuel') (n n' : N) (hn : Rn n n') (r e : ℚ) (n1 : N)
    (h : drawRmax env dp lat fuel n = .ok (r, e, n1)) :
    ∃ n1', drawRmax env dp lat fuel' n' = .ok (r, e, n1') ∧ Rn n1 n1' := by
  induction fuel generalizing fuel' n n' with
  | zero => simp [drawRmax] at h
  | succ fuel ih =>
    obtain ⟨f', rfl⟩ : ∃ f', fuel' = f' + 1 := ⟨fuel' - 1, by omega⟩
    obtain ⟨h1, h2⟩ := hR 0.335 n n' hn
    simp only [drawRmax] at h ⊢
    rw [← h1]
    split at h
    · rename_i hgt
      rw [if_pos hgt]
      exact ih f' (by omega) _ _ h2 h
    · rename_i hgt
      rw [if_neg hgt]
      simp only [Except.ok.injEq, Prod.mk.injEq] at h
      obtain ⟨rfl, rfl, rfl⟩ := h
      exact ⟨_, rfl, h2⟩

theorem genesisRmax_rel (env : Env N) (Rn : N → N → Prop) (hR : Sim env Rn) (dp lat : ℚ)
    (fuel fuel' : ℕ) (hf : fuel ≤ fuel') (n n' : N) (hn : Rn n n') (init : Option ℚ) (e0 e0' : Option ℚ)
    (he : truthy init = none ∨ e0 = e0') (r : ℚ) (e : Option ℚ) (n1 : N)
    (h : genesisRmax env fuel init e0 dp lat n = .ok (r, e, n1)) :
    ∃ n1', genesisRmax env fuel' init e0' dp lat n' = .ok (r, e, n1') ∧ Rn n1 n1' := by
  simp only [genesisRmax] at h ⊢
  cases ht : truthy init with
  | some x =>
    simp only [ht] at h ⊢
    simp only [Except.ok.injEq, Prod.mk.injEq] at h
    obtain ⟨rfl, rfl, rfl⟩ := h
    rcases he with he | he
    · rw [ht] at he; cases he
    · exact ⟨n', by rw [he], hn⟩
  | none =>
    simp only [ht] at h ⊢
    split at h
    · simp at h
    rename_i hs
    rw [if_neg hs]
    split at h
    · simp at h
    rename_i r0 eps0 n0 hd
    simp only [Except.ok.injEq, Prod.mk.injEq] at h
    obtain ⟨rfl, rfl, rfl⟩ := h
    obtain ⟨n1', h1, h2⟩ := drawRmax_rel env Rn hR dp lat fuel fuel' hf n n' hn _ _ _ hd
    rw [h1]
    exact ⟨n1', rfl, h2⟩

/-- Two states of the generation loop that produce the same tracks. -/
structure Rel (Rn : N → N → Prop) (init : Init) (w w' : W G N) : Prop where
  g : w.g = w'.g
  n : Rn w.n w'.n
  envP : w.envP = w'.envP
  eps : truthy init.rmax = none ∨ w.rmwEps = w'.rmwEps

theorem sampleGenesis_rel (R : Rng G) (env : Env N) (Rn : N → N → Prop) (hR : Sim env Rn)
    (fuel fuel' : ℕ) (hf : fuel ≤ fuel') (init : Init) (year : ℤ) (w w' : W G N)
    (hw : Rel Rn init w w') (gen : Genesis) (w1 : W G N)
    (h : sampleGenesis R env fuel init year w = .ok (gen, w1)) :
    ∃ w1', sampleGenesis R env fuel' init year w' = .ok (gen, w1') ∧ Rel Rn init w1 w1' ∧
      w1.rmwEps = w1'.rmwEps := by
  obtain ⟨g0, n0, e0, p0⟩ := w
  obtain ⟨g0', n0', e0', p0'⟩ := w'
  obtain ⟨rfl, hn, rfl, he⟩ := hw
  simp only at hn he
  simp only [sampleGenesis, bind, Except.bind] at h ⊢
  split at h
  · simp at h
  rename_i v1 h1
  obtain ⟨lon, lat, g1⟩ := v1
  simp only at h ⊢
  split at h
  · simp at h
  rename_i cell h2
  try simp only
  split at h
  · simp at h
  rename_i v3 h3
  try simp only
  split at h
  · simp at h
  rename_i v4 h4
  try simp only
  split at h
  · simp at h
  rename_i v5 h5
  try simp only
  split at h
  · simp at h
  rename_i v6 h6
  try simp only
  split at h
  · simp at h
  rename_i v7 h7
  try simp only
  split at h
  · simp at h
  rename_i v8 h8
  obtain ⟨r, e, n1⟩ := v8
  obtain ⟨n1', h9, h10⟩ := genesisRmax_rel env Rn hR _ _ fuel fuel' hf n0 n0' hn _ _ _ he _ _ _ h8
  rw [h9]
  simp only [pure, Except.pure, Except.ok.injEq, Prod.mk.injEq] at h ⊢
  obtain ⟨rfl, rfl⟩ := h
  exact ⟨_, ⟨rfl, rfl⟩, ⟨rfl, h10, rfl, Or.inr rfl⟩, rfl⟩

theorem attempt_rel (R : Rng G) (env : Env N) (Rn : N → N → Prop) (hR : Sim env Rn)
    (fuel fuel' : ℕ) (hf : fuel ≤ fuel') (init : Init) (year simId : ℤ) (j : ℕ) (w w' : W G N)
    (hw : Rel Rn init w w') (o : Option Track) (w1 : W G N)
    (h : attempt R env fuel init year simId j w = .ok (o, w1)) :
    ∃ w1', attempt R env fuel' init year simId j w' = .ok (o, w1') ∧ Rel Rn init w1 w1' := by
  simp only [attempt] at h ⊢
  split at h
  · simp at h
  rename_i gen w2 hg
  obtain ⟨w2', hg', hrel, heps⟩ := sampleGenesis_rel R env Rn hR fuel fuel' hf init year w w' hw _ _ hg
  rw [hg']
  simp only
  split at h
  · rename_i hc
    rw [if_pos hc]
    simp only [Except.ok.injEq, Prod.mk.injEq] at h
    obtain ⟨rfl, rfl⟩ := h
    exact ⟨w2', rfl, hrel⟩
  rename_i hc
  rw [if_neg hc]
  split at h
  · rename_i hc2
    rw [if_pos hc2]
    simp only [Except.ok.injEq, Prod.mk.injEq] at h
    obtain ⟨rfl, rfl⟩ := h
    exact ⟨w2', rfl, hrel⟩
  rename_i hc2
  rw [if_neg hc2, ← heps, ← hrel.g]
  split at h
  · simp at h
  rename_i rows g hs
  simp only [Except.ok.injEq, Prod.mk.injEq] at h ⊢
  obtain ⟨rfl, rfl⟩ := h
  exact ⟨_, ⟨rfl, rfl⟩, ⟨rfl, hrel.n, hrel.envP, Or.inr rfl⟩⟩

theorem genLoop_rel (R : Rng G) (env : Env N) (Rn : N → N → Prop) (hR : Sim env Rn) (init : Init)
    (year simId : ℤ) (fuel fuel' : ℕ) (hf : fuel ≤ fuel') (todo j : ℕ) (w w' : W G N)
    (hw : Rel Rn init w w') (ts : List Track) (w1 : W G N)
    (h : genLoop R env init year simId fuel todo j w = .ok (ts, w1)) :
    ∃ w1', genLoop R env init year simId fuel' todo j w' = .ok (ts, w1') ∧ Rel Rn init w1 w1' := by
  induction fuel generalizing fuel' todo j w w' ts w1 with
  | zero =>
    cases todo with
    | zero =>
      simp only [genLoop, Except.ok.injEq, Prod.mk.injEq] at h
      obtain ⟨rfl, rfl⟩ := h
      exact ⟨w', by cases fuel' <;> simp [genLoop], hw⟩
    | succ todo => simp [genLoop] at h
  | succ fuel ih =>
    obtain ⟨f', rfl⟩ : ∃ f', fuel' = f' + 1 := ⟨fuel' - 1, by omega⟩
    cases todo with
    | zero =>
      simp only [genLoop, Except.ok.injEq, Prod.mk.injEq] at h ⊢
      obtain ⟨rfl, rfl⟩ := h
      exact ⟨w', by simp, hw⟩
    | succ todo =>
      simp only [genLoop] at h ⊢
      split at h
      · simp at h
      · rename_i w2 ha
        obtain ⟨w2', ha', hr⟩ := attempt_rel R env Rn hR fuel f' (by omega) init year simId j w w' hw _ _ ha
        rw [ha']
        exact ih f' (by omega) _ _ _ _ hr _ _ h
      · rename_i t w2 ha
        obtain ⟨w2', ha', hr⟩ := attempt_rel R env Rn hR fuel f' (by omega) init year simId j w w' hw _ _ ha
        rw [ha']
        split at h
        · simp at h
        rename_i ts' w3 hl
        obtain ⟨w3', hl', hr'⟩ := ih f' (by omega) _ _ _ _ hr _ _ hl
        simp only [Except.ok.injEq, Prod.mk.injEq] at h
        obtain ⟨rfl, rfl⟩ := h
        simp only [hl']
        exact ⟨w3', rfl, hr'⟩

theorem generateTracks_rel (R : Rng G) (env : Env N) (Rn : N → N → Prop) (hR : Sim env Rn)
    (fuel fuel' : ℕ) (hf : fuel ≤ fuel') (nTracks : ℕ) (simId : ℤ) (init : Init) (w w' : W G N)
    (hw : Rel Rn init w w') (ts : List Track) (w1 : W G N)
    (h : generateTracks R env fuel nTracks simId init w = .ok (ts, w1)) :
    ∃ w1', generateTracks R env fuel' nTracks simId init w' = .ok (ts, w1') ∧ Rel Rn init w1 w1' := by
  simp only [generateTracks] at h ⊢
  rw [← hw.g]
  exact genLoop_rel R env Rn hR init _ simId fuel fuel' hf nTracks 0
    { w with g := (R.uniform 1900 9998 w.g).2 } { w' with g := (R.uniform 1900 9998 w.g).2 }
    ⟨rfl, hw.n, hw.envP, hw.eps⟩ _ _ h

/-- A simulation with a non-zero seed gives the same file from any two related global states. -/
theorem runSim_rel (R : Rng G) (env : Env N) (Rn : N → N → Prop) (hR : Sim env Rn)
    (fuel fuel' : ℕ) (trackSeed : ℤ) (hseed : trackSeed ≠ 0) (last : ℕ) (sim : ℕ × ℕ)
    (s s' : RankState G N) (hs : Rn s.n s'.n) (hs' : Rn s'.n s.n)
    (o o' : ℕ × List Track) (t t' : RankState G N)
    (h : runSim R env fuel trackSeed last sim s = .ok (o, t))
    (h' : runSim R env fuel' trackSeed last sim s' = .ok (o', t')) : o = o' := by
  simp only [runSim] at h h'
  split at h
  · simp at h
  rename_i hl
  rw [if_neg hl] at h'
  simp only [hseed, ne_eq, not_false_eq_true, if_true] at h h'
  split at h
  · simp at h
  rename_i ts w1 h1
  split at h'
  · simp at h'
  rename_i ts' w1' h1'
  simp only [Except.ok.injEq, Prod.mk.injEq] at h h'
  obtain ⟨rfl, -⟩ := h
  obtain ⟨rfl, -⟩ := h'
  rcases le_total fuel fuel' with hf | hf
  · obtain ⟨_, hh, -⟩ := generateTracks_rel R env Rn hR fuel fuel' hf _ _ _
      ⟨R.ofKey (key trackSeed sim.1), s.n, s.rmwEps, none⟩
      ⟨R.ofKey (key trackSeed sim.1), s'.n, s'.rmwEps, none⟩ ⟨rfl, hs, rfl, Or.inl rfl⟩ _ _ h1
    rw [hh] at h1'
    simp only [Except.ok.injEq, Prod.mk.injEq] at h1'
    rw [h1'.1]
  · obtain ⟨_, hh, -⟩ := generateTracks_rel R env Rn hR fuel' fuel hf _ _ _
      ⟨R.ofKey (key trackSeed sim.1), s'.n, s'.rmwEps, none⟩
      ⟨R.ofKey (key trackSeed sim.1), s.n, s.rmwEps, none⟩ ⟨rfl, hs', rfl, Or.inl rfl⟩ _ _ h1'
    rw [hh] at h1
    simp only [Except.ok.injEq, Prod.mk.injEq] at h1
    rw [h1.1]

theorem runSim_index (R : Rng G) (env : Env N) (fuel : ℕ) (trackSeed : ℤ) (last : ℕ) (sim : ℕ × ℕ)
    (s t : RankState G N) (o : ℕ × List Track)
    (h : runSim R env fuel trackSeed last sim s = .ok (o, t)) : o.1 = sim.1 := by
  simp only [runSim] at h
  split at h
  · simp at h
  split at h
  · simp at h
  simp only [Except.ok.injEq, Prod.mk.injEq] at h
  rw [← h.1]

theorem runSims_mem (R : Rng G) (env : Env N) (fuel : ℕ) (trackSeed : ℤ) (last : ℕ)
    (sims : List (ℕ × ℕ)) (s : RankState G N) (outs : List (ℕ × List Track))
    (h : runSims R env fuel trackSeed last sims s = .ok outs) (o : ℕ × List Track) (ho : o ∈ outs) :
    ∃ sim ∈ sims, ∃ s1 t, runSim R env fuel trackSeed last sim s1 = .ok (o, t) := by
  induction sims generalizing s outs with
  | nil => simp [runSims] at h; subst h; simp at ho
  | cons sim rest ih =>
    simp only [runSims] at h
    split at h
    · simp at h
    rename_i out s1 h1
    split at h
    · simp at h
    rename_i outs' h2
    simp only [Except.ok.injEq] at h
    subst h
    rcases List.mem_cons.1 ho with rfl | ho
    · exact ⟨sim, by simp, s, s1, h1⟩
    · obtain ⟨sim', hm, r⟩ := ih s1 outs' h2 ho
      exact ⟨sim', by simp [hm], r⟩

end Tcrm.TrackGen
