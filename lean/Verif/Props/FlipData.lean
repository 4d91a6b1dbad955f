import Verif.Props.Mirror
import Verif.Props.SamePost

/-!
# C241: a reversed spectrum is fitted by the reversed rotation

The likelihood of data reversed in wavelength about the line, for the opposite rotation speed, and of data turned by half a turn, for the same
parameters.
-/

namespace Misfit
variable {r c : ℕ}

/-- Specification: the image with the wavelengths, and for `b` also the rows, in the opposite order. -/
def Img.flip {K : Type*} (b : Bool) (x : Img r c K) : Img r c K := fun i j => x (if b then i.rev else i) j.rev

/-- Specification: all arrays of the observation in the opposite order. -/
def FitData.flip {K : Type*} (b : Bool) (d : FitData r c K) : FitData r c K :=
  ⟨d.flux.flip b, d.err.flip b, d.mask.flip b, d.weight.flip b⟩

/-- Specification: the same galaxy and instrument with the observation in the opposite order, the columns used for the scaling as well. -/
def KinInput.flip (b : Bool) (g : KinInput r c) : KinInput r c :=
  { g with data := g.data.flip b, nosky := g.nosky.map (List.map Fin.rev) }

/-- the permutation of the rows -/
def flipRow (b : Bool) : Equiv.Perm (Fin r) := if b then Fin.revPerm else Equiv.refl _

theorem flipRow_apply (b : Bool) (i : Fin r) : flipRow b i = if b then i.rev else i := by
  cases b <;> rfl

theorem sum_flip (b : Bool) (F : Fin r → Fin c → Fl ℝ) :
    (∑ i : Fin r, ∑ j : Fin c, F (if b then i.rev else i) j.rev) = ∑ i, ∑ j, F i j := by
  rw [← Equiv.sum_comp (flipRow b) fun i => ∑ j, F i j]
  refine Finset.sum_congr rfl (fun i _ => ?_)
  rw [← Equiv.sum_comp Fin.revPerm fun j : Fin c => F (flipRow b i) j, flipRow_apply]
  rfl

/-- **C241**: the model scaled to the reversed flux is the reversed scaled model. -/
theorem C241_scale (b : Bool) (flux err model : Img r c ℝ) (cols : List (Fin c)) :
    scaleModel (flux.flip b) (err.flip b) (model.flip b) (cols.map Fin.rev) = (scaleModel flux err model cols).flip b := by
  funext i j
  unfold scaleModel scaleNum scaleDen Img.flip
  simp only [List.map_map, Function.comp_def, Fin.rev_rev]

/-- **C241**: the likelihood and chi-square of reversed data and model. -/
theorem C241_flip (b : Bool) (d : FitData r c ℝ) (model : Img r c ℝ) :
    modelLlike (d.flip b) (model.flip b) = modelLlike d model ∧ modelChisq (d.flip b) (model.flip b) = modelChisq d model := by
  constructor
  · unfold modelLlike
    exact congrArg _ (sum_flip b fun i j => d.mask i j *
      (d.weight i j * Fl.sq ((d.flux i j - model i j) / d.err i j) + log10 (.fin (2 * Real.pi) * Fl.sq (d.err i j))))
  · exact sum_flip b fun i j => chisqPixel (d.flux i j) (d.err i j) (d.mask i j) (d.weight i j) (model i j)

theorem toImg_reflected (b : Bool) (o o' : Option Arr2) (h : Reflected b (.ok o) (.ok o')) :
    toImg r c o' = (toImg r c o).flip b := by
  cases o with
  | none =>
    cases o' with
    | none => rfl
    | some a => exact h.elim
  | some a =>
    cases o' with
    | none => exact h.elim
    | some a' =>
      obtain ⟨n, m, v⟩ := a
      obtain ⟨n', m', v'⟩ := a'
      obtain ⟨hn, hm, hv⟩ := h
      simp only at hn hm hv
      subst hn hm
      funext i j
      unfold toImg Img.flip
      by_cases hd : n' = r ∧ m' = c
      · obtain ⟨rfl, rfl⟩ := hd
        simp only [and_self, dif_pos, Fin.cast_eq_self] at hv ⊢
        exact congrArg Fl.fin (hv i j)
      · simp only [dif_neg hd]

theorem finish_flip (b : Bool) (M M' : KinModelState r c) (g : KinInput r c) (img img' : Option Arr2)
    (hi : Reflected b (.ok img) (.ok img')) (hns : M.noScale = M'.noScale) (s s' : AperState) (ha : M.aper = some (g, s))
    (ha' : M'.aper = some (g.flip b, s')) :
    (finishModel M g img).2 = (finishModel M' (g.flip b) img').2 ∧
      (finishModel M g img).1.llike = (finishModel M' (g.flip b) img').1.llike := by
  have ht := toImg_reflected (r := r) (c := c) b img img' hi
  unfold finishModel KinModelState.llike
  rw [hns, ht]
  cases M'.noScale with
  | true =>
    simp only [if_true, ha, ha', true_and]
    exact congrArg _ (C241_flip b g.data _).1.symm
  | false =>
    simp only [Bool.false_eq_true, if_false]
    cases hno : g.nosky with
    | none =>
      have : (g.flip b).nosky = none := by rw [KinInput.flip, hno]; rfl
      simp only [this, ha, ha', true_and]
      exact congrArg _ (C241_flip b g.data _).1.symm
    | some cols =>
      have : (g.flip b).nosky = some (cols.map Fin.rev) := by rw [KinInput.flip, hno]; rfl
      simp only [this, ha, ha', true_and]
      have h2 := C241_scale b g.data.flux g.data.err (toImg r c img) cols
      have h3 : scaleModel (g.flip b).data.flux (g.flip b).data.err ((toImg r c img).flip b) (cols.map Fin.rev) =
          (scaleModel g.data.flux g.data.err (toImg r c img) cols).flip b := h2
      rw [h3]
      exact congrArg _ (C241_flip b g.data _).1.symm

/-- what two constructions of the aperture model give -/
def BuiltReflected (b : Bool) : Except PyErr (AperState × Except PyErr (Option Arr2)) →
    Except PyErr (AperState × Except PyErr (Option Arr2)) → Prop
  | .error e, .error e' => e' = e
  | .ok x, .ok x' => Reflected b x.2 x'.2
  | _, _ => False

theorem buildModel_start (cfg : AperCfg) (kin kin' : KinProfile) (h : kin.shape = kin'.shape) (theta : List ℝ) (k : KinProfile)
    (hk : kin.updateTheta theta = .ok k) : buildModel cfg kin theta = buildModel cfg kin' theta := by
  have hk' := hk
  rw [updateTheta_congr kin kin' h] at hk'
  unfold buildModel
  cases setupCalcs cfg theta with
  | error e => rfl
  | ok f =>
    simp only
    rw [doModelCalcs_eq, doModelCalcs_eq]
    simp only [hk, hk']

theorem make_any (g : KinInput r c) (theta0 : List ℝ) (vary : List Bool) (kin : KinProfile) (ns : Bool)
    (hl : vary.length = theta0.length) (hk : kin.shape = (some 2, some 1)) (fit : List ℝ) (hfit : fit.length = vary.count true)
    (va rt sig m z : ℝ) (hfull : (updateParameters theta0 vary fit).1 = [va, rt, sig, m, z]) :
    match buildModel g.aperCfg ⟨[], some ⟨[], 2⟩, some ⟨[], 1⟩⟩ [va, rt, sig, m, z] with
    | .error e => ((KinModelState.init theta0 vary kin ns : KinModelState r c).make g fit).2 = .error e
    | .ok (_, .error e) => ((KinModelState.init theta0 vary kin ns : KinModelState r c).make g fit).2 = .error e
    | .ok (s, .ok img) => ∃ M : KinModelState r c, M.noScale = ns ∧ M.aper = some (g, s) ∧
      (KinModelState.init theta0 vary kin ns : KinModelState r c).make g fit = finishModel M g img := by
  rw [buildModel_start g.aperCfg ⟨[], some ⟨[], 2⟩, some ⟨[], 1⟩⟩ (sharpKin va rt sig m z) rfl [va, rt, sig, m, z]
    (sharpKin va rt sig m z) rfl]
  have hpu := ((ParamsFrom.init theta0 vary).update hl fit hfit).1
  rw [hfull] at hpu
  have hup : kin.updateTheta [va, rt, sig, m, z] = .ok (sharpKin va rt sig m z) := by
    rw [updateTheta_congr kin ⟨[], some ⟨[], 2⟩, some ⟨[], 1⟩⟩ (by rw [hk]; rfl)]
    rfl
  unfold KinModelState.make
  rw [show (KinModelState.init theta0 vary kin ns : KinModelState r c).params = KinParams.init theta0 vary from rfl, hpu]
  simp only [KinModelState.init, hup]
  rcases buildModel g.aperCfg (sharpKin va rt sig m z) [va, rt, sig, m, z] with e | ⟨s, e | img⟩
  · rfl
  · rfl
  · exact ⟨_, by dsimp only, by dsimp only, rfl⟩

theorem like_reflected (b : Bool) (g : KinInput r c)
    (kin : KinProfile) (hk : kin.shape = (some 2, some 1)) (ns : Bool) (ts ts' : List ℝ) (vs : List Bool) (shift z : ℝ)
    (hl : vs.length = ts.length) (hl' : vs.length = ts'.length) (f0 f0' : List ℝ) (calls calls' : List (KinCall r c))
    (m0 m1 m0' m1' : KinModelState r c)
    (hm0 : m0 = KinModelState.init (ts ++ [shift, z]) (vs ++ [false, false]) kin ns) (hm1 : m1 = (m0.make g f0).1)
    (hm0' : m0' = KinModelState.init (ts' ++ [shift, z]) (vs ++ [false, false]) kin ns) (hm1' : m1' = (m0'.make (g.flip b) f0').1)
    (h0 : (m0.make g f0).2 = .ok ()) (h0' : (m0'.make (g.flip b) f0').2 = .ok ())
    (hall : g.cfg.adaptive = true → AllOk m1 calls ∧ AllOk m1' calls')
    (fit fit' : List ℝ) (hf : fit.length = vs.count true) (hf' : fit'.length = vs.count true) (va va' rt sig : ℝ)
    (hfull : (updateParameters (ts ++ [shift, z]) (vs ++ [false, false]) fit).1 = [va, rt, sig, shift, z])
    (hfull' : (updateParameters (ts' ++ [shift, z]) (vs ++ [false, false]) fit').1 = [va', rt, sig, shift, z])
    (hR : BuiltReflected b (buildModel g.aperCfg ⟨[], some ⟨[], 2⟩, some ⟨[], 1⟩⟩ [va, rt, sig, shift, z])
      (buildModel g.aperCfg ⟨[], some ⟨[], 2⟩, some ⟨[], 1⟩⟩ [va', rt, sig, shift, z])) :
    ((m1.run calls).lnlike fit).2 = ((m1'.run calls').lnlike fit').2 := by
  have hlen : (vs ++ [false, false]).length = (ts ++ [shift, z]).length := by simp [hl]
  have hlen' : (vs ++ [false, false]).length = (ts' ++ [shift, z]).length := by simp [hl']
  have hcnt : (vs ++ [false, false]).count true = vs.count true := by simp
  have e := (C85_history g ts vs shift z kin ns hl f0 calls m0 m1 hm0 hm1 h0 (fun h => (hall h).1) fit).1
  have e' := (C85_history (g.flip b) ts' vs shift z kin ns hl' f0' calls' m0' m1' hm0' hm1' h0' (fun h => (hall h).2) fit').1
  have hsame : (m0.make g fit).2 = (m0'.make (g.flip b) fit').2 ∧
      ((m0.make g fit).2 = .ok () → (m0.make g fit).1.llike = (m0'.make (g.flip b) fit').1.llike) := by
    subst hm0 hm0'
    have A := make_any g _ _ kin ns hlen hk fit (by rw [hcnt]; exact hf) va rt sig shift z hfull
    have B := make_any (g.flip b) _ _ kin ns hlen' hk fit' (by rw [hcnt]; exact hf') va' rt sig shift z hfull'
    have hcfg : (g.flip b).aperCfg = g.aperCfg := rfl
    rw [hcfg] at B
    revert hR A B
    generalize buildModel g.aperCfg ⟨[], some ⟨[], 2⟩, some ⟨[], 1⟩⟩ [va, rt, sig, shift, z] = x
    generalize buildModel g.aperCfg ⟨[], some ⟨[], 2⟩, some ⟨[], 1⟩⟩ [va', rt, sig, shift, z] = x'
    rcases x with e | ⟨s, e | img⟩ <;> rcases x' with e' | ⟨s', e' | img'⟩ <;> intro hR A B
    · have hee : e' = e := hR
      rw [A, B, hee]
      exact ⟨rfl, fun h => by cases h⟩
    · exact hR.elim
    · exact hR.elim
    · exact hR.elim
    · have hee : e' = e := hR
      simp only at A B
      rw [A, B, hee]
      exact ⟨rfl, fun h => by cases h⟩
    · exact hR.elim
    · exact hR.elim
    · exact (show False by cases img <;> exact hR).elim
    · obtain ⟨M, a1, a2, a3⟩ := A
      obtain ⟨M', b1, b2, b3⟩ := B
      rw [a3, b3]
      obtain ⟨c1, c2⟩ := finish_flip b M M' g img img' hR (a1.trans b1.symm) s s' a2 b2
      exact ⟨c1, fun _ => c2⟩
  unfold KinModelState.lnlike
  revert e e'
  generalize (m1.run calls).update fit = x
  generalize (m1'.run calls').update fit' = x'
  obtain ⟨a, ra⟩ := x
  obtain ⟨a', ra'⟩ := x'
  rintro ⟨h1, h2⟩ ⟨h1', h2'⟩
  simp only at h1 h2 h1' h2'
  have hr : ra = ra' := by rw [h1, h1', hsame.1]
  subst hr
  cases ra with
  | error e => rfl
  | ok u => exact ((h2 rfl).2.2.trans (hsame.2 h1.symm)).trans (h2' rfl).2.2.symm

/-- **C241**: the data reversed in wavelength about the line have, for the opposite rotation speed, the likelihood of the data: for every PSF,
resolution, inclination, position of the galaxy and sampling.  An evaluation that fails fails for both with the same exception. -/
theorem C241_reverse (g : KinInput r c)
    (kin : KinProfile) (hk : kin.shape = (some 2, some 1)) (ns : Bool) (ts ts' : List ℝ) (vs : List Bool) (shift z : ℝ)
    (hl : vs.length = ts.length) (hl' : vs.length = ts'.length) (f0 f0' : List ℝ) (calls calls' : List (KinCall r c))
    (m0 m1 m0' m1' : KinModelState r c)
    (hm0 : m0 = KinModelState.init (ts ++ [shift, z]) (vs ++ [false, false]) kin ns) (hm1 : m1 = (m0.make g f0).1)
    (hm0' : m0' = KinModelState.init (ts' ++ [shift, z]) (vs ++ [false, false]) kin ns)
    (hm1' : m1' = (m0'.make (g.flip false) f0').1)
    (h0 : (m0.make g f0).2 = .ok ()) (h0' : (m0'.make (g.flip false) f0').2 = .ok ())
    (hall : g.cfg.adaptive = true → AllOk m1 calls ∧ AllOk m1' calls')
    (fit fit' : List ℝ) (hf : fit.length = vs.count true) (hf' : fit'.length = vs.count true) (va rt sig : ℝ)
    (hfull : (updateParameters (ts ++ [shift, z]) (vs ++ [false, false]) fit).1 = [va, rt, sig, shift, z])
    (hfull' : (updateParameters (ts' ++ [shift, z]) (vs ++ [false, false]) fit').1 = [-va, rt, sig, shift, z])
    (hline : LineInMiddle g.aperCfg z) (hs : sig ≠ 0) :
    ((m1.run calls).lnlike fit).2 = ((m1'.run calls').lnlike fit').2 := by
  refine like_reflected false g kin hk ns ts ts' vs shift z hl hl' f0 f0' calls calls' m0 m1 m0' m1' hm0 hm1 hm0' hm1' h0 h0' hall fit
    fit' hf hf' va (-va) rt sig hfull hfull' ?_
  have h := C146_reverse g.aperCfg [] [] [] va rt sig shift z hline hs
  revert h
  generalize buildModel g.aperCfg ⟨[], some ⟨[], 2⟩, some ⟨[], 1⟩⟩ [va, rt, sig, shift, z] = x
  generalize buildModel g.aperCfg ⟨[], some ⟨[], 2⟩, some ⟨[], 1⟩⟩ [-va, rt, sig, shift, z] = x'
  intro h
  cases x <;> cases x' <;> exact h

/-- **C241**: the data of a disc in the middle of the slit, turned by half a turn in rows and wavelengths together, have the likelihood of the
data for the same parameters, without a PSF or with odd numbers of subpixels. -/
theorem C241_turned (g : KinInput r c)
    (kin : KinProfile) (hk : kin.shape = (some 2, some 1)) (ns : Bool) (ts ts' : List ℝ) (vs : List Bool) (shift z : ℝ)
    (hl : vs.length = ts.length) (hl' : vs.length = ts'.length) (f0 f0' : List ℝ) (calls calls' : List (KinCall r c))
    (m0 m1 m0' m1' : KinModelState r c)
    (hm0 : m0 = KinModelState.init (ts ++ [shift, z]) (vs ++ [false, false]) kin ns) (hm1 : m1 = (m0.make g f0).1)
    (hm0' : m0' = KinModelState.init (ts' ++ [shift, z]) (vs ++ [false, false]) kin ns)
    (hm1' : m1' = (m0'.make (g.flip true) f0').1)
    (h0 : (m0.make g f0).2 = .ok ()) (h0' : (m0'.make (g.flip true) f0').2 = .ok ())
    (hall : g.cfg.adaptive = true → AllOk m1 calls ∧ AllOk m1' calls')
    (fit fit' : List ℝ) (hf : fit.length = vs.count true) (hf' : fit'.length = vs.count true) (va rt sig : ℝ)
    (hfull : (updateParameters (ts ++ [shift, z]) (vs ++ [false, false]) fit).1 = [va, rt, sig, shift, z])
    (hfull' : (updateParameters (ts' ++ [shift, z]) (vs ++ [false, false]) fit').1 = [va, rt, sig, shift, z])
    (hline : LineInMiddle g.aperCfg z) (hs : sig ≠ 0) (hc : CentredDisc g.aperCfg shift)
    (hpsf : g.cfg.psf.fwhm ≤ 0 ∨ ((g.cfg.nWhole * g.cfg.nSubpixels) % 2 = 1 ∧ slitCells g.aperCfg % 2 = 1)) :
    ((m1.run calls).lnlike fit).2 = ((m1'.run calls').lnlike fit').2 := by
  refine like_reflected true g kin hk ns ts ts' vs shift z hl hl' f0 f0' calls calls' m0 m1 m0' m1' hm0 hm1 hm0' hm1' h0 h0' hall fit
    fit' hf hf' va va rt sig hfull hfull' ?_
  obtain ⟨s, x, hb, hx⟩ := C147_point_symmetric_partial g.aperCfg [] [] [] va rt sig shift z hline hs hc hpsf
  rw [hb]
  exact hx

/-- **C241** for the posterior: where both fitting vectors are inside their bounds or both outside. -/
theorem C241_posterior (g : KinInput r c)
    (kin : KinProfile) (hk : kin.shape = (some 2, some 1)) (ns : Bool) (ts ts' : List ℝ) (vs : List Bool) (shift z : ℝ)
    (hl : vs.length = ts.length) (hl' : vs.length = ts'.length) (f0 f0' : List ℝ) (calls calls' : List (KinCall r c))
    (m0 m1 m0' m1' : KinModelState r c)
    (hm0 : m0 = KinModelState.init (ts ++ [shift, z]) (vs ++ [false, false]) kin ns) (hm1 : m1 = (m0.make g f0).1)
    (hm0' : m0' = KinModelState.init (ts' ++ [shift, z]) (vs ++ [false, false]) kin ns)
    (hm1' : m1' = (m0'.make (g.flip false) f0').1)
    (h0 : (m0.make g f0).2 = .ok ()) (h0' : (m0'.make (g.flip false) f0').2 = .ok ())
    (hall : g.cfg.adaptive = true → AllOk m1 calls ∧ AllOk m1' calls')
    (bounds bounds' : List (Option (Fl ℝ × Fl ℝ))) (hb : ∀ i : Nat, vs[i]? = some true → ∃ b, bounds[i]? = some (some b))
    (hb' : ∀ i : Nat, vs[i]? = some true → ∃ b, bounds'[i]? = some (some b))
    (fit fit' : List ℝ) (hf : fit.length = vs.count true) (hf' : fit'.length = vs.count true)
    (hin : InBounds vs.length vs bounds (fit.map Fl.fin) ↔ InBounds vs.length vs bounds' (fit'.map Fl.fin)) (va rt sig : ℝ)
    (hfull : (updateParameters (ts ++ [shift, z]) (vs ++ [false, false]) fit).1 = [va, rt, sig, shift, z])
    (hfull' : (updateParameters (ts' ++ [shift, z]) (vs ++ [false, false]) fit').1 = [-va, rt, sig, shift, z])
    (hline : LineInMiddle g.aperCfg z) (hs : sig ≠ 0) :
    ((m1.run calls).lnprob bounds fit).2 = ((m1'.run calls').lnprob bounds' fit').2 :=
  post_same g (g.flip false) ts ts' vs shift shift z z kin ns hl hl' f0 f0' calls calls' m0 m1 m0' m1' hm0 hm1 hm0' hm1' h0 h0'
    (fun h => (hall h).1) (fun h => (hall h).2) bounds bounds' hb hb' fit fit' hf hf' hin
    (C241_reverse g kin hk ns ts ts' vs shift z hl hl' f0 f0' calls calls' m0 m1 m0' m1' hm0 hm1 hm0' hm1' h0 h0' hall fit fit' hf hf' va rt
      sig hfull hfull' hline hs)

/-- **C241** for the posterior of the data turned by half a turn, at the same fitting vector. -/
theorem C241_turned_posterior (g : KinInput r c)
    (kin : KinProfile) (hk : kin.shape = (some 2, some 1)) (ns : Bool) (ts : List ℝ) (vs : List Bool) (shift z : ℝ)
    (hl : vs.length = ts.length) (f0 f0' : List ℝ) (calls calls' : List (KinCall r c)) (m0 m1 m1' : KinModelState r c)
    (hm0 : m0 = KinModelState.init (ts ++ [shift, z]) (vs ++ [false, false]) kin ns) (hm1 : m1 = (m0.make g f0).1)
    (hm1' : m1' = (m0.make (g.flip true) f0').1)
    (h0 : (m0.make g f0).2 = .ok ()) (h0' : (m0.make (g.flip true) f0').2 = .ok ())
    (hall : g.cfg.adaptive = true → AllOk m1 calls ∧ AllOk m1' calls')
    (bounds : List (Option (Fl ℝ × Fl ℝ))) (hb : ∀ i : Nat, vs[i]? = some true → ∃ b, bounds[i]? = some (some b))
    (fit : List ℝ) (hf : fit.length = vs.count true) (va rt sig : ℝ)
    (hfull : (updateParameters (ts ++ [shift, z]) (vs ++ [false, false]) fit).1 = [va, rt, sig, shift, z])
    (hline : LineInMiddle g.aperCfg z) (hs : sig ≠ 0) (hc : CentredDisc g.aperCfg shift)
    (hpsf : g.cfg.psf.fwhm ≤ 0 ∨ ((g.cfg.nWhole * g.cfg.nSubpixels) % 2 = 1 ∧ slitCells g.aperCfg % 2 = 1)) :
    ((m1.run calls).lnprob bounds fit).2 = ((m1'.run calls').lnprob bounds fit).2 :=
  post_same g (g.flip true) ts ts vs shift shift z z kin ns hl hl f0 f0' calls calls' m0 m1 m0 m1' hm0 hm1 hm0 hm1' h0 h0'
    (fun h => (hall h).1) (fun h => (hall h).2) bounds bounds hb hb fit fit hf hf Iff.rfl
    (C241_turned g kin hk ns ts ts vs shift z hl hl f0 f0' calls calls' m0 m1 m0 m1' hm0 hm1 hm0 hm1' h0 h0' hall fit fit hf hf va rt
      sig hfull hfull hline hs hc hpsf)

/-! ## The hypotheses are met -/

/-- the disc `turnSlit` in the middle of three rows, one subpixel each -/
noncomputable def flipSlit : AperCfg :=
  { turnSlit with nWhole := 3, m0 := 1, nSubpixels := 1, slit := 1, adaptive := false }

/-- data of three rows and two wavelengths, different in every pixel -/
noncomputable def flipFit : KinInput 3 2 where
  cfg := flipSlit
  rows := rfl
  cols := by simp [flipSlit, turnSlit, smallSlit, uniformGrid]
  data := finData (fun i j => (i : ℝ) + 3 * (j : ℝ)) (fun i j => 1 + (i : ℝ) * (j : ℝ)) (fun _ _ => 1) (fun _ j => 1 + (j : ℝ))
  nosky := some [0, 1]

/-- the model object of a fit of speed, radius and dispersion -/
noncomputable def flipObject : KinModelState 3 2 :=
  KinModelState.init ([1, 1, 1] ++ [0, 1 / 2]) ([true, true, true] ++ [false, false]) ⟨[], some ⟨[], 2⟩, some ⟨[], 1⟩⟩ false

theorem flip_luminous : Luminous flipFit.aperCfg := by
  have h := turnSlit_luminous
  exact ⟨by show 0 < 3; omega, by show 0 < 1; omega, h.pix, by show (0 : ℝ) < 1; norm_num, h.pad, h.int, h.axis, h.mask, rfl, h.wave,
    (fun h => by cases h), h.dither, h.beta⟩

theorem flip_line : LineInMiddle flipFit.aperCfg (1 / 2) := by
  refine ⟨Or.inl ⟨rfl, 1, rfl, 1, one_pos, le_refl 2, ?_⟩, fun h => by cases h⟩
  show ∀ i : Fin (uniformGrid (1 : ℝ) 1 2).length, (uniformGrid (1 : ℝ) 1 2).get i = 1 * (1 + 1 / 2) +
    ((i.val : ℝ) - (((uniformGrid (1 : ℝ) 1 2).length : ℝ) - 1) / 2) * 1
  intro i
  have h : ∀ (n : ℕ) (hn : n < (uniformGrid (1 : ℝ) 1 2).length), (uniformGrid (1 : ℝ) 1 2)[n] = 1 + (n : ℝ) * 1 := by
    intro n hn
    simp [uniformGrid]
  have hl : (uniformGrid (1 : ℝ) 1 2).length = 2 := rfl
  have hc : ((uniformGrid (1 : ℝ) 1 2).length : ℝ) = 2 := congrArg Nat.cast hl
  rw [List.get_eq_getElem, h, hc]
  ring

theorem flip_ready (b : Bool) : (flipObject.make flipFit [1, 1, 1]).2 = .ok () ∧ (flipObject.make (flipFit.flip b) [1, 1, 1]).2 = .ok () := by
  have hst : ¬ flipFit.aperCfg.psf.StampFails := by rintro ⟨h, -⟩; cases h
  have hkf : KernelFits flipFit.aperCfg :=
    kernelFits_wide _ flip_luminous (by norm_num [KinInput.aperCfg, flipFit, flipSlit, turnSlit, smallSlit])
  obtain ⟨s, -, img, hb, -⟩ := C229_image flipFit.aperCfg flip_luminous zero_le_one hst (Or.inr hkf)
    (by norm_num [KinInput.aperCfg, flipFit, flipSlit, turnSlit, smallSlit])
    (by norm_num [KinInput.aperCfg, flipFit, flipSlit, turnSlit, smallSlit]) (sharpKin 1 1 1 0 (1 / 2)) rfl 1 1 1 1 1 0 (1 / 2) one_ne_zero
    one_ne_zero one_pos (by norm_num) (Or.inr (Or.inr (Or.inl ⟨rfl, rfl⟩)))
  have key : ∀ g : KinInput 3 2, g.aperCfg = flipFit.aperCfg → (∃ l, g.nosky = some l) → (flipObject.make g [1, 1, 1]).2 = .ok () := by
    rintro g hg ⟨l, hno⟩
    obtain ⟨M, hM, -, hmk⟩ := make_image g ([1, 1, 1] ++ [0, 1 / 2]) ([true, true, true] ++ [false, false])
      ⟨[], some ⟨[], 2⟩, some ⟨[], 1⟩⟩ false rfl rfl [1, 1, 1] rfl 1 1 1 0 (1 / 2) rfl s (some img) (by rw [hg]; exact hb)
    unfold flipObject
    rw [hmk]
    unfold finishModel
    simp only [hM, Bool.false_eq_true, if_false, hno]
  exact ⟨key _ rfl ⟨_, rfl⟩, key _ rfl ⟨_, rfl⟩⟩

theorem flip_centred : CentredDisc flipFit.aperCfg 0 :=
  ⟨by show 0 < 3; omega, by show 0 < 1; omega, by show 1 < 3 * 1; omega, by show (0 : ℝ) < 1; norm_num,
    by show (0 : ℝ) < 1; norm_num, by show (0 : ℝ) ≤ 1 * (1 / 2); norm_num, by show (1 : ℝ) + 0 = (((3 : ℕ) : ℝ) - 1) / 2; norm_num, rfl,
    fun r z => by
      show Real.exp (-r - (-z) ^ 2) = Real.exp (-r - z ^ 2)
      rw [neg_sq], fun h => by cases h⟩

theorem flip_odd : slitCells flipFit.aperCfg % 2 = 1 := by
  have : slitCells flipFit.aperCfg = ⌈(1 : ℝ) * ((1 : ℕ) : ℝ) / 1⌉.toNat := rfl
  rw [this]
  norm_num

/-- the likelihoods of the reversed and of the turned data, for all fitting vectors -/
example : ∀ calls calls' : List (KinCall 3 2), ∀ va rt sig : ℝ, sig ≠ 0 →
    ((flipObject.make flipFit [1, 1, 1]).1.run calls |>.lnlike [va, rt, sig]).2 =
      ((flipObject.make (flipFit.flip false) [1, 1, 1]).1.run calls' |>.lnlike [-va, rt, sig]).2 ∧
    ((flipObject.make flipFit [1, 1, 1]).1.run calls |>.lnlike [va, rt, sig]).2 =
      ((flipObject.make (flipFit.flip true) [1, 1, 1]).1.run calls' |>.lnlike [va, rt, sig]).2 := by
  intro calls calls' va rt sig hs
  constructor
  · exact C241_reverse flipFit _ rfl false [1, 1, 1] [1, 1, 1] [true, true, true] 0 (1 / 2) rfl rfl [1, 1, 1] [1, 1, 1] calls calls' _ _ _ _
      rfl rfl rfl rfl (flip_ready false).1 (flip_ready false).2 (fun h => by cases h) [va, rt, sig] [-va, rt, sig] rfl rfl va rt sig rfl rfl
      flip_line hs
  · exact C241_turned flipFit _ rfl false [1, 1, 1] [1, 1, 1] [true, true, true] 0 (1 / 2) rfl rfl [1, 1, 1] [1, 1, 1] calls calls' _ _ _ _
      rfl rfl rfl rfl (flip_ready true).1 (flip_ready true).2 (fun h => by cases h) [va, rt, sig] [va, rt, sig] rfl rfl va rt sig rfl rfl
      flip_line hs flip_centred (Or.inr ⟨rfl, flip_odd⟩)

/-- the posteriors, for bounds symmetric about zero for the speed -/
example : ∀ calls calls' : List (KinCall 3 2), ∀ va rt sig : ℝ, sig ≠ 0 →
    let b : List (Option (Fl ℝ × Fl ℝ)) := [some (.fin (-300), .fin 300), some (.fin 1, .fin 2), some (.fin 1, .fin 90)]
    ((flipObject.make flipFit [1, 1, 1]).1.run calls |>.lnprob b [va, rt, sig]).2 =
      ((flipObject.make (flipFit.flip false) [1, 1, 1]).1.run calls' |>.lnprob b [-va, rt, sig]).2 ∧
    ((flipObject.make flipFit [1, 1, 1]).1.run calls |>.lnprob b [va, rt, sig]).2 =
      ((flipObject.make (flipFit.flip true) [1, 1, 1]).1.run calls' |>.lnprob b [va, rt, sig]).2 := by
  intro calls calls' va rt sig hs b
  have hb : ∀ i : Nat, [true, true, true][i]? = some true → ∃ x, b[i]? = some (some x) := by
    intro i hi
    rcases i with _ | _ | _ | i
    · exact ⟨_, rfl⟩
    · exact ⟨_, rfl⟩
    · exact ⟨_, rfl⟩
    · simp at hi
  have hin : ∀ v : ℝ, InBounds 3 [true, true, true] b ([v, rt, sig].map Fl.fin) ↔
      (-300 ≤ v ∧ v ≤ 300) ∧ (1 ≤ rt ∧ rt ≤ 2) ∧ (1 ≤ sig ∧ sig ≤ 90) := by
    intro v
    unfold InBounds
    constructor
    · intro H
      obtain ⟨_, _, e1, e2, a1, a2⟩ := H 0 (by omega) rfl
      obtain ⟨_, _, e3, e4, a3, a4⟩ := H 1 (by omega) rfl
      obtain ⟨_, _, e5, e6, a5, a6⟩ := H 2 (by omega) rfl
      cases e1; cases e2; cases e3; cases e4; cases e5; cases e6
      exact ⟨⟨of_decide_eq_true a1, of_decide_eq_true a2⟩, ⟨of_decide_eq_true a3, of_decide_eq_true a4⟩,
        of_decide_eq_true a5, of_decide_eq_true a6⟩
    · rintro ⟨⟨a1, a2⟩, ⟨a3, a4⟩, a5, a6⟩ i hi -
      rcases i with _ | _ | _ | i
      · exact ⟨_, _, rfl, rfl, decide_eq_true a1, decide_eq_true a2⟩
      · exact ⟨_, _, rfl, rfl, decide_eq_true a3, decide_eq_true a4⟩
      · exact ⟨_, _, rfl, rfl, decide_eq_true a5, decide_eq_true a6⟩
      · omega
  constructor
  · refine C241_posterior flipFit _ rfl false [1, 1, 1] [1, 1, 1] [true, true, true] 0 (1 / 2) rfl rfl [1, 1, 1] [1, 1, 1] calls calls' _ _ _
      _ rfl rfl rfl rfl (flip_ready false).1 (flip_ready false).2 (fun h => by cases h) b b hb hb [va, rt, sig] [-va, rt, sig] rfl rfl ?_
      va rt sig rfl rfl flip_line hs
    refine (hin va).trans (Iff.trans ?_ (hin (-va)).symm)
    exact and_congr_left' ⟨fun h => ⟨by linarith [h.2], by linarith [h.1]⟩, fun h => ⟨by linarith [h.2], by linarith [h.1]⟩⟩
  · exact C241_turned_posterior flipFit _ rfl false [1, 1, 1] [true, true, true] 0 (1 / 2) rfl [1, 1, 1] [1, 1, 1] calls calls' _ _ _
      rfl rfl rfl (flip_ready true).1 (flip_ready true).2 (fun h => by cases h) b hb [va, rt, sig] rfl va rt sig rfl
      flip_line hs flip_centred (Or.inr ⟨rfl, flip_odd⟩)

end Misfit
