import Verif.Model.Objects
import Verif.Lemmas.Params
import Verif.Props.Params

/-!
# C47, C48, C67-C70: attributes, constructors, preparation, shared objects
-/

namespace Misfit

variable {V : Type}

/-! ## Dictionaries -/

theorem Dict.mem_keys_iff (d : Dict V) (k : String) : k ∈ d.keys ↔ (d.get k).isSome = true := by
  induction d with
  | nil => simp [Dict.keys, Dict.get]
  | cons x xs ih =>
    obtain ⟨a, b⟩ := x
    have : Dict.keys ((a, b) :: xs) = a :: Dict.keys xs := rfl
    rw [this, List.mem_cons, ih, Dict.get]
    by_cases h : a = k
    · simp [h]
    · rw [if_neg h]
      constructor
      · rintro (h' | h')
        · exact absurd h'.symm h
        · exact h'
      · exact Or.inr

theorem Dict.get_none_iff (d : Dict V) (k : String) : d.get k = none ↔ k ∉ d.keys := by
  rw [Dict.mem_keys_iff]
  cases d.get k <;> simp

theorem Dict.get_set (d : Dict V) (k : String) (v : V) (j : String) :
    (d.set k v).get j = if k = j then some v else d.get j := by
  induction d with
  | nil => simp [Dict.set, Dict.get]
  | cons x xs ih =>
    obtain ⟨a, b⟩ := x
    rw [Dict.set]
    by_cases h : a = k
    · subst h
      rw [if_pos rfl, Dict.get, Dict.get]
      by_cases h' : a = j
      · rw [if_pos h', if_pos h']
      · rw [if_neg h', if_neg h', if_neg h']
    · rw [if_neg h, Dict.get, Dict.get, ih]
      by_cases h' : a = j
      · subst h'
        rw [if_pos rfl, if_pos rfl, if_neg (fun h2 => h h2.symm)]
      · rw [if_neg h', if_neg h']

theorem Dict.keys_set (d : Dict V) (k : String) (v : V) (hk : k ∈ d.keys) :
    (d.set k v).keys = d.keys := by
  induction d with
  | nil => simp [Dict.keys] at hk
  | cons x xs ih =>
    obtain ⟨a, b⟩ := x
    rw [Dict.set]
    by_cases h : a = k
    · rw [if_pos h]; rfl
    · rw [if_neg h]
      show a :: Dict.keys (Dict.set xs k v) = a :: Dict.keys xs
      rw [ih]
      have : k ∈ a :: Dict.keys xs := hk
      rw [List.mem_cons] at this
      rcases this with h' | h'
      · exact absurd h'.symm h
      · exact h'

theorem Dict.set_same (d : Dict V) (k : String) (v : V) (h : d.get k = some v) :
    d.set k v = d := by
  induction d with
  | nil => simp [Dict.get] at h
  | cons x xs ih =>
    obtain ⟨a, b⟩ := x
    rw [Dict.get] at h
    rw [Dict.set]
    by_cases h' : a = k
    · rw [if_pos h'] at h ⊢
      rw [Option.some.inj h]
    · rw [if_neg h'] at h ⊢
      rw [ih h]

/-- Updating with pairs whose keys exist and whose values are a function of the key. -/
theorem Dict.update_spec (f : String → Option V) :
    ∀ (ks : List String) (d : Dict V), (∀ k ∈ ks, k ∈ d.keys ∧ (f k).isSome = true) →
      let r := d.update (ks.filterMap fun k => (f k).map fun v => (k, v))
      r.keys = d.keys ∧ ∀ j, r.get j = if j ∈ ks then f j else d.get j := by
  intro ks
  induction ks with
  | nil => intro d _; exact ⟨rfl, fun j => by simp [Dict.update]⟩
  | cons k ks ih =>
    intro d hks
    obtain ⟨hk, hf⟩ := hks k (by simp)
    obtain ⟨v, hv⟩ := Option.isSome_iff_exists.1 hf
    have hkeys := Dict.keys_set d k v hk
    have := ih (d.set k v) (fun j hj => by
      rw [hkeys]; exact hks j (by simp [hj]))
    have hstep : Dict.update d ((k :: ks).filterMap fun k => (f k).map fun v => (k, v)) =
        Dict.update (d.set k v) (ks.filterMap fun k => (f k).map fun v => (k, v)) := by
      rw [List.filterMap_cons, hv]
      rfl
    intro r
    have hr : r = Dict.update (d.set k v) (ks.filterMap fun k => (f k).map fun v => (k, v)) := hstep
    obtain ⟨h1, h2⟩ := this
    rw [hr]
    refine ⟨h1.trans hkeys, fun j => ?_⟩
    rw [h2 j, Dict.get_set]
    by_cases hj : j ∈ ks
    · simp [hj]
    · by_cases hjk : k = j
      · subst hjk; simp [hv]
      · have : j ∉ k :: ks := by
          rw [List.mem_cons]
          rintro (h | h)
          · exact hjk h.symm
          · exact hj h
        rw [if_neg hj, if_neg this, if_neg hjk]

/-- **C48**: `setAttr` keeps the list of attributes, and every attribute has afterwards the
value given for it, or its old value when none was given. -/
theorem C48_setAttr (kw d : Dict V) :
    (setAttr kw d).keys = d.keys ∧
    (∀ k v, k ∈ d.keys → kw.get k = some v → (setAttr kw d).get k = some v) ∧
    (∀ k, k ∉ kw.keys → (setAttr kw d).get k = d.get k) ∧
    (∀ k, k ∉ d.keys → (setAttr kw d).get k = none) := by
  let f : String → Option V := fun k => if k ∈ d.keys then kw.get k else none
  let ks : List String := kw.keys.filter fun k => decide (k ∈ d.keys)
  have hform : setAttr kw d = d.update (ks.filterMap fun k => (f k).map fun v => (k, v)) := by
    unfold setAttr
    congr 1
    rw [List.filterMap_filter]
    congr 1
    funext k
    by_cases hk : k ∈ d.keys
    · simp [hk, f]
    · simp [hk]
  have hks : ∀ k ∈ ks, k ∈ d.keys ∧ (f k).isSome = true := by
    intro k hk
    obtain ⟨h1, h2⟩ := List.mem_filter.1 hk
    have h2 : k ∈ d.keys := of_decide_eq_true h2
    refine ⟨h2, ?_⟩
    show (if k ∈ d.keys then kw.get k else none).isSome = true
    rw [if_pos h2]
    exact (Dict.mem_keys_iff kw k).1 h1
  obtain ⟨h1, h2⟩ := Dict.update_spec f ks d hks
  rw [hform]
  refine ⟨h1, fun k v hk hv => ?_, fun k hk => ?_, fun k hk => ?_⟩
  · rw [h2 k, if_pos]
    · show (if k ∈ d.keys then kw.get k else none) = some v
      rw [if_pos hk, hv]
    · refine List.mem_filter.2 ⟨(Dict.mem_keys_iff kw k).2 (by rw [hv]; rfl), ?_⟩
      exact decide_eq_true hk
  · rw [h2 k, if_neg]
    intro h
    exact hk (List.mem_filter.1 h).1
  · rw [h2 k, if_neg]
    · exact (Dict.get_none_iff d k).2 hk
    · intro h
      exact hk (of_decide_eq_true (List.mem_filter.1 h).2)

example : setAttr [("q", 2), ("typo", 5)] [("z", 1), ("q", 0), ("n", 3)] =
    [("z", 1), ("q", 2), ("n", 3)] := by decide

/-- `setAttr` with values that are already there changes nothing. -/
theorem setAttr_same (kw d : Dict V)
    (h : ∀ k v, kw.get k = some v → d.get k = some v ∨ d.get k = none) : setAttr kw d = d := by
  unfold setAttr
  have : ∀ (ps : Dict V), (∀ p ∈ ps, d.get p.1 = some p.2) → d.update ps = d := by
    intro ps
    induction ps with
    | nil => intro _; rfl
    | cons p ps ih =>
      intro hp
      show Dict.update (d.set p.1 p.2) ps = d
      rw [Dict.set_same d p.1 p.2 (hp p (by simp))]
      exact ih fun q hq => hp q (by simp [hq])
  apply this
  intro p hp
  obtain ⟨k, hk, hkp⟩ := List.mem_filterMap.1 hp
  by_cases hd : k ∈ d.keys
  · rw [if_pos hd] at hkp
    cases hv : kw.get k with
    | none => rw [hv] at hkp; simp at hkp
    | some v =>
      rw [hv, Option.map_some, Option.some.injEq] at hkp
      rw [← hkp]
      rcases h k v hv with h' | h'
      · exact h'
      · exact absurd ((Dict.mem_keys_iff d k).1 hd) (by rw [h']; simp)
  · rw [if_neg hd] at hkp
    exact absurd hkp (by simp)

/-! ## C68: constructor keywords -/

/-- A later statement of the constructor does not decide attribute `k`: it assigns another
attribute, or updates from keywords that do not include `k`. -/
def Leaves (k : String) : CtorStep V → Prop
  | .assign j _ => j ≠ k
  | .param j _ => j ≠ k
  | .update named => k ∈ named

theorem Dict.get_filter_named (kw : Dict V) (named : List String) (k : String) :
    Dict.get (kw.filter fun p => decide (p.1 ∉ named)) k =
      if k ∈ named then none else kw.get k := by
  induction kw with
  | nil => simp [Dict.get]
  | cons x xs ih =>
    obtain ⟨a, b⟩ := x
    rw [List.filter_cons]
    by_cases ha : a ∈ named
    · simp only [ha, not_true, decide_false]
      rw [if_neg (by simp), ih, Dict.get]
      by_cases hk : k ∈ named
      · rw [if_pos hk, if_pos hk]
      · rw [if_neg hk, if_neg hk, if_neg (fun h : a = k => hk (h ▸ ha))]
    · simp only [ha, not_false_iff, decide_true]
      rw [if_pos (by simp), Dict.get, Dict.get, ih]
      by_cases hak : a = k
      · subst hak; rw [if_pos rfl, if_pos rfl, if_neg ha]
      · rw [if_neg hak, if_neg hak]

theorem run_leaves (kw : Dict V) (k : String) (s : CtorStep V) (h : Leaves k s) (d : Dict V) :
    (s.run kw d).get k = d.get k := by
  cases s with
  | assign j v => rw [CtorStep.run, Dict.get_set, if_neg h]
  | param j v => rw [CtorStep.run, Dict.get_set, if_neg h]
  | update named =>
    rw [CtorStep.run]
    apply (C48_setAttr _ d).2.2.1
    rw [← Dict.get_none_iff, Dict.get_filter_named, if_pos (show k ∈ named from h)]

theorem runs_leave (kw : Dict V) (k : String) :
    ∀ (post : List (CtorStep V)), (∀ s ∈ post, Leaves k s) → ∀ d : Dict V,
      Dict.get (post.foldl (fun d s => s.run kw d) d) k = d.get k := by
  intro post
  induction post with
  | nil => intro _ d; rfl
  | cons s post ih =>
    intro h d
    rw [List.foldl_cons, ih (fun t ht => h t (by simp [ht]))]
    exact run_leaves kw k s (h s (by simp)) d

theorem run_keys (kw : Dict V) (s : CtorStep V) (d : Dict V) (k : String) (hk : k ∈ d.keys) :
    k ∈ (s.run kw d).keys := by
  rw [Dict.mem_keys_iff] at hk ⊢
  cases s with
  | assign j v => rw [CtorStep.run, Dict.get_set]; split
                  · rfl
                  · exact hk
  | param j v => rw [CtorStep.run, Dict.get_set]; split
                 · rfl
                 · exact hk
  | update named =>
    rw [CtorStep.run, ← Dict.mem_keys_iff, (C48_setAttr _ d).1, Dict.mem_keys_iff]
    exact hk

/-- **C68** (rule, overwritten): an attribute assigned a value after the last keyword update that
could set it has that value, whatever keywords were given. -/
theorem C68_overwritten (pre post : List (CtorStep V)) (k : String) (w : V)
    (hpost : ∀ s ∈ post, Leaves k s) (kw : Dict V) :
    Dict.get (construct (pre ++ .assign k w :: post) kw) k = some w := by
  unfold construct
  rw [List.foldl_append, List.foldl_cons, runs_leave kw k post hpost, CtorStep.run, Dict.get_set,
    if_pos rfl]

/-- **C68** (rule, effective): a keyword for an attribute that exists before a keyword update, and
is not decided by a later statement, takes effect. -/
theorem C68_effective (pre post : List (CtorStep V)) (named : List String) (k : String) (v : V)
    (kw : Dict V) (hk : k ∈ (construct pre kw).keys) (hn : k ∉ named)
    (hpost : ∀ s ∈ post, Leaves k s) (hv : kw.get k = some v) :
    Dict.get (construct (pre ++ .update named :: post) kw) k = some v := by
  unfold construct
  rw [List.foldl_append, List.foldl_cons, runs_leave kw k post hpost, CtorStep.run]
  apply (C48_setAttr _ _).2.1 k v hk
  rw [Dict.get_filter_named, if_neg hn, hv]

/-- **C68** (rule, named parameter): a named parameter not decided later takes effect. -/
theorem C68_named (pre post : List (CtorStep V)) (k : String) (v dflt : V) (kw : Dict V)
    (hpost : ∀ s ∈ post, Leaves k s) (hv : kw.get k = some v) :
    Dict.get (construct (pre ++ .param k dflt :: post) kw) k = some v := by
  unfold construct
  rw [List.foldl_append, List.foldl_cons, runs_leave kw k post hpost, CtorStep.run, Dict.get_set,
    if_pos rfl, hv]
  rfl

theorem mem_keys_assign (pre post : List (CtorStep V)) (k : String) (s : CtorStep V)
    (hs : (∃ w, s = .assign k w) ∨ ∃ w, s = .param k w) (kw : Dict V) :
    k ∈ (construct (pre ++ s :: post) kw).keys := by
  unfold construct
  rw [List.foldl_append, List.foldl_cons]
  have h0 : k ∈ Dict.keys (s.run kw (pre.foldl (fun d s => s.run kw d) [])) := by
    rw [Dict.mem_keys_iff]
    rcases hs with ⟨w, rfl⟩ | ⟨w, rfl⟩
    · rw [CtorStep.run, Dict.get_set, if_pos rfl]; rfl
    · rw [CtorStep.run, Dict.get_set, if_pos rfl]; rfl
  revert h0
  generalize s.run kw (pre.foldl (fun d s => s.run kw d) []) = d
  induction post generalizing d with
  | nil => exact id
  | cons t post ih =>
    intro h
    rw [List.foldl_cons]
    exact ih _ (run_keys kw t d k h)

theorem overwritten_of {steps : List (CtorStep V)} (pre post : List (CtorStep V)) (k : String)
    (w : V) (hform : steps = pre ++ .assign k w :: post) (hpost : ∀ s ∈ post, Leaves k s)
    (kw : Dict V) : Dict.get (construct steps kw) k = some w := by
  rw [hform]; exact C68_overwritten pre post k w hpost kw

theorem mem_keys_of {steps : List (CtorStep V)} (pre post : List (CtorStep V)) (k : String)
    (w : V) (hform : steps = pre ++ .assign k w :: post) (kw : Dict V) :
    k ∈ (construct steps kw).keys := by
  rw [hform]; exact mem_keys_assign pre post k _ (Or.inl ⟨w, rfl⟩) kw

/-- **C68** (partial): every keyword of the parameter settings object, of the composite kinematic
profile and of the Moffat PSF takes effect. Missing from the full claim: the elementary profiles
and the model options, see the theorems named `C68_false`. -/
theorem C68_keywords_partial (kw : Dict PyVal) (k : String) (v : PyVal)
    (hv : kw.get k = some v) :
    (k ∈ ["theta", "theta_vary", "theta_names", "theta_names_nice", "theta_bounds", "theta_linked_posteriors"] →
      ∀ a b, Dict.get (construct (thetaFiducialCtor a b) kw) k = some v) ∧
    (k ∈ ["theta", "name", "theta_names", "theta_names_nice", "velProfile", "dispProfile"] → ∀ a b, Dict.get (construct (kinProfileFiducialCtor a b) kw) k = some v) ∧
    (k ∈ ["PSF_type", "PSF_FWHM", "yspace_dither_arc", "_conv_stamp", "PSF_beta"] →
      Dict.get (construct psfMoffatCtor kw) k = some v) := by
  refine ⟨fun (hk : k ∈ thetaNamed) a b => ?_, fun (hk : k ∈ kinProfileNamed) a b => ?_, fun hk => ?_⟩
  · have hform : thetaFiducialCtor a b =
        ((thetaNamed.map fun k => CtorStep.param k .none) ++
          [.update ("usetex" :: thetaNamed), .assign "theta" (.nums [0, 0, 0, 0, 0]),
            .assign "theta_vary" (.obj a),
            .assign "theta_names" (.names ["V_a", "r_t", "sigma0", "m0_shift", "z"]),
            .assign "theta_names_nice" (.obj b)]) ++ .update ["usetex"] :: [] := by
      simp [thetaFiducialCtor]
    rw [hform]
    apply C68_effective _ _ _ _ _ _ _ _ (by simp) hv
    · obtain ⟨p, q, hpq⟩ := List.append_of_mem
        (List.mem_map_of_mem (f := fun k => CtorStep.param (V := PyVal) k .none) hk)
      rw [hpq, List.append_assoc, List.cons_append]
      exact mem_keys_assign _ _ k _ (Or.inr ⟨_, rfl⟩) kw
    · simp only [List.mem_cons, List.not_mem_nil, or_false]
      rintro rfl
      exact absurd hk (by decide)
  · have hform : kinProfileFiducialCtor a b =
        ((kinProfileNamed.map fun k => CtorStep.param k .none) ++
          [.update kinProfileNamed, .assign "name" (.str "VelArctanDispConstProfile"),
            .assign "velProfile" (.obj a), .assign "dispProfile" (.obj b)]) ++ .update [] :: [] := by
      simp [kinProfileFiducialCtor]
    rw [hform]
    apply C68_effective _ _ _ _ _ _ _ (by simp) (by simp) hv
    obtain ⟨p, q, hpq⟩ := List.append_of_mem
      (List.mem_map_of_mem (f := fun k => CtorStep.param (V := PyVal) k .none) hk)
    rw [hpq, List.append_assoc, List.cons_append]
    exact mem_keys_assign _ _ k _ (Or.inr ⟨_, rfl⟩) kw
  · by_cases hb : k = "PSF_beta"
    · subst hb
      have hform : psfMoffatCtor = psfMoffatCtor.take 6 ++
          .param "PSF_beta" (.num 2.5) :: [.update ["PSF_beta"]] := rfl
      rw [hform]
      exact C68_named _ _ _ _ _ _ (by simp [Leaves]) hv
    · have hform : psfMoffatCtor = psfMoffatCtor.take 7 ++ .update ["PSF_beta"] :: [] := rfl
      rw [hform]
      apply C68_effective _ _ _ _ _ _ _ (by simpa using hb) (by simp) hv
      simp only [List.mem_cons, List.not_mem_nil, or_false] at hk
      rcases hk with rfl | rfl | rfl | rfl | rfl
      · exact mem_keys_of [] ((psfMoffatCtor.take 7).drop 1) _ (.str "plain") rfl kw
      · exact mem_keys_of (psfMoffatCtor.take 1) ((psfMoffatCtor.take 7).drop 2) _ .none rfl kw
      · exact mem_keys_of (psfMoffatCtor.take 2) ((psfMoffatCtor.take 7).drop 3) _ .none rfl kw
      · exact mem_keys_of (psfMoffatCtor.take 3) ((psfMoffatCtor.take 7).drop 4) _ .none rfl kw
      · exact absurd rfl hb

example : Dict.get (construct (thetaFiducialCtor 1 2) [("theta", .nums [1, 2, 3, 4, 5])]) "theta" =
    some (.nums [1, 2, 3, 4, 5]) := by decide +kernel
example : Dict.get (construct psfMoffatCtor [("PSF_beta", .num 4)]) "PSF_beta" =
    some (.num 4) := by decide +kernel

/-- **C68**, negation (profiles): the parameters given to the constructors of the arctan velocity
profile and the constant dispersion profile are discarded, for every keyword set. -/
theorem C68_false_profiles (kw : Dict PyVal) :
    Dict.get (construct velArctanCtor kw) "theta" = some (.nums [0, 0]) ∧
    Dict.get (construct dispConstCtor kw) "theta" = some (.nums [0]) := by
  constructor
  · exact overwritten_of (velArctanCtor.take 3) (velArctanCtor.drop 4) "theta" _ rfl
      (by simp [velArctanCtor, Leaves]) kw
  · exact overwritten_of (dispConstCtor.take 3) (dispConstCtor.drop 4) "theta" _ rfl
      (by simp [dispConstCtor, Leaves]) kw

/-- **C68**, negation (intensity): Sersic index, radius and thickness given to the intensity profile
constructor are discarded in favour of those of the galaxy. -/
theorem C68_false_intensity (n re q0 : PyVal) (kw : Dict PyVal) :
    Dict.get (construct (intSersicCtor n re q0) kw) "n" = some n ∧
    Dict.get (construct (intSersicCtor n re q0) kw) "re_arcsec" = some re := by
  constructor
  · exact overwritten_of ((intSersicCtor n re q0).take 8) ((intSersicCtor n re q0).drop 9) "n" n rfl
      (by simp [intSersicCtor, Leaves]) kw
  · exact overwritten_of ((intSersicCtor n re q0).take 9) ((intSersicCtor n re q0).drop 10)
      "re_arcsec" re rfl (by simp [intSersicCtor, Leaves]) kw

/-- **C68**, negation (model options): the wavelength shift and effective resolution options given
to the 2D model itself never have an influence on the model that is built. -/
theorem C68_false_options (a b a' b' s r : Bool) :
    (ModelOptions.mk a b s r).used = (ModelOptions.mk a' b' s r).used := rfl

/-! ## C67: starting redshift of the 1D fit -/

/-- **C67**, negation: a starting redshift given to the 1D fit is always replaced by that of the
galaxy. -/
theorem C67_false (galaxyZ : PyVal) (kw : Dict PyVal) :
    Dict.get (construct (fit1DCtor galaxyZ) kw) "z" = some galaxyZ :=
  overwritten_of ((fit1DCtor galaxyZ).take 4) [] "z" galaxyZ rfl (by simp) kw

/-- **C67** (partial): the other starting values take effect. Missing: the redshift, see
`C67_false`. -/
theorem C67_others_partial (galaxyZ v : PyVal) (kw : Dict PyVal)
    (hv : kw.get "vel_disp" = some v) :
    Dict.get (construct (fit1DCtor galaxyZ) kw) "vel_disp" = some v := by
  have hform : fit1DCtor galaxyZ = (fit1DCtor galaxyZ).take 3 ++
      .update [] :: [.assign "z" galaxyZ] := rfl
  rw [hform]
  apply C68_effective _ _ _ _ _ _ _ (by simp) (by simp [Leaves]) hv
  exact mem_keys_of ((fit1DCtor galaxyZ).take 2) [] _ .none rfl kw

/-- **C67**, exact condition: starting values given for the redshift and the dispersion are both used exactly if the redshift is
the galaxy's. -/
theorem C67_exact (galaxyZ z v : PyVal) (kw : Dict PyVal) (hv : kw.get "vel_disp" = some v) :
    (Dict.get (construct (fit1DCtor galaxyZ) kw) "z" = some z ∧
      Dict.get (construct (fit1DCtor galaxyZ) kw) "vel_disp" = some v) ↔ z = galaxyZ := by
  rw [C67_false]
  exact ⟨fun h => (Option.some.inj h.1).symm, fun h => ⟨by rw [h], C67_others_partial galaxyZ v kw hv⟩⟩

example : Dict.get (construct (fit1DCtor (.num 2)) [("z", .num 2.3), ("vel_disp", .num 80)]) "z" =
    some (.num 2) := by decide +kernel
example : Dict.get (construct (fit1DCtor (.num 2)) [("z", .num 2.3), ("vel_disp", .num 80)])
    "vel_disp" = some (.num 80) := by decide +kernel

/-! ## C47: preparation happens once -/

section Prep
variable {γ : Type} (steps : PrepState γ → PrepState γ × Option PyErr)

/-- A successful preparation leaves the flag set and the galaxy linked. -/
theorem C47_flag (kw : Dict PyVal) (s s' : PrepState γ) (h : fitPrep steps kw s = (s', none)) :
    s'.linked = true ∧ ∃ v, s'.attrs.get "prepared_for_fitting" = some v ∧ v.truthy = true := by
  unfold fitPrep at h
  simp only at h
  split at h
  · exact absurd (Prod.mk.inj h).2 (by simp)
  · rename_i v hv
    split at h
    · rename_i ht
      rw [← (Prod.mk.inj h).1]
      exact ⟨rfl, v, hv, ht⟩
    · split at h
      · exact absurd (Prod.mk.inj h).2 (by simp)
      · rw [← (Prod.mk.inj h).1]
        exact ⟨rfl, .bool true, by rw [Dict.get_set, if_pos rfl], rfl⟩

/-- **C47** (partial): after a successful preparation, any number of further calls succeeds and
changes nothing, when each keyword of those calls is unknown or names the value already
there (in particular with no keywords), whatever the preparation steps do.
Missing from the full claim: repeating the same call with keywords, see `C47_false`. -/
theorem C47_idempotent_partial (kw : Dict PyVal) (s s' : PrepState γ)
    (h : fitPrep steps kw s = (s', none)) (kws : List (Dict PyVal))
    (hkws : ∀ kw' ∈ kws, ∀ k v, kw'.get k = some v →
      s'.attrs.get k = some v ∨ s'.attrs.get k = none) :
    fitPrepRun steps (kw :: kws) s = (s', none) := by
  obtain ⟨hl, v, hv, ht⟩ := C47_flag steps kw s s' h
  have hrest : ∀ kws : List (Dict PyVal), (∀ kw' ∈ kws, ∀ k v, kw'.get k = some v →
      s'.attrs.get k = some v ∨ s'.attrs.get k = none) → fitPrepRun steps kws s' = (s', none) := by
    intro kws
    induction kws with
    | nil => intro _; rfl
    | cons kw' kws ih =>
      intro hk
      have h1 : fitPrep steps kw' s' = (s', none) := by
        unfold fitPrep
        rw [setAttr_same kw' s'.attrs (hk kw' (by simp))]
        simp only [hv, ht, if_true]
        rw [← hl]
      rw [fitPrepRun, h1]
      exact ih fun kw2 h2 => hk kw2 (by simp [h2])
  rw [fitPrepRun, h]
  exact hrest kws hkws

/-- **C47**: while the flag is not set, a failed preparation is reported and not recorded as
done: the flag keeps whatever value the failed steps left. -/
theorem C47_failed (kw : Dict PyVal) (s s2 : PrepState γ) (e : PyErr) (v : PyVal)
    (hv : (setAttr kw s.attrs).get "prepared_for_fitting" = some v) (ht : v.truthy = false)
    (hs : steps { s with attrs := setAttr kw s.attrs } = (s2, some e)) :
    fitPrep steps kw s = (s2, some e) := by
  unfold fitPrep
  simp only [hv, ht, hs, Bool.false_eq_true, if_false]

/-- Specification: the values that Python takes for false -/
def Falsy (v : PyVal) : Prop :=
  v = .none ∨ v = .bool false ∨ v = .str "" ∨ v = .num 0 ∨ v = .nums [] ∨ v = .names []

/-- **C47**: the calculations are made exactly if the flag (which a keyword may change) has a false value. -/
theorem C47_runs (kw : Dict PyVal) (s : PrepState γ) (e : PyErr) (s2 : PrepState γ) (v : PyVal)
    (hv : (setAttr kw s.attrs).get "prepared_for_fitting" = some v)
    (hs : steps { s with attrs := setAttr kw s.attrs } = (s2, some e)) :
    (Falsy v → fitPrep steps kw s = (s2, some e)) ∧
      (¬ Falsy v → fitPrep steps kw s = ({ s with attrs := setAttr kw s.attrs, linked := true }, none)) := by
  have ht : v.truthy = false ↔ Falsy v := by
    unfold Falsy
    cases v <;> simp [PyVal.truthy]
  refine ⟨fun hf => C47_failed steps kw s s2 e v hv (ht.2 hf) hs, fun hf => ?_⟩
  have ht : v.truthy = true := by
    by_contra h
    exact hf (ht.1 (by simpa using h))
  unfold fitPrep
  simp only [hv, ht, if_true]

/-- the hypotheses of `C47_runs` are met with an empty string as the flag -/
example : Dict.get (setAttr [("prepared_for_fitting", .str "")] [("prepared_for_fitting", PyVal.bool true)]) "prepared_for_fitting" =
    some (.str "") ∧ Falsy (.str "") := ⟨by decide +kernel, by simp [Falsy]⟩

/-- **C47**, negation: for whatever preparation steps, a call with the keyword
`linenames_arr=None` that succeeded and found line names, repeated unchanged, leaves the
spectrum prepared but without line names. -/
theorem C47_false (s s' : PrepState γ) (ns : List String)
    (h : fitPrep steps [("linenames_arr", .none)] s = (s', none))
    (hn : s'.attrs.get "linenames_arr" = some (.names ns)) :
    ∃ s'', fitPrep steps [("linenames_arr", .none)] s' = (s'', none) ∧
      s''.attrs.get "linenames_arr" = some .none ∧ s'' ≠ s' := by
  obtain ⟨hl, v, hv, ht⟩ := C47_flag steps _ s s' h
  obtain ⟨h1, h2, h3, _⟩ := C48_setAttr [("linenames_arr", PyVal.none)] s'.attrs
  have hmem : "linenames_arr" ∈ s'.attrs.keys := by rw [Dict.mem_keys_iff, hn]; rfl
  have hget := h2 "linenames_arr" .none hmem rfl
  have hflag := (h3 "prepared_for_fitting" (by decide)).trans hv
  refine ⟨{ s' with attrs := setAttr [("linenames_arr", .none)] s'.attrs, linked := true }, ?_,
    hget, ?_⟩
  · unfold fitPrep
    simp only [hflag, ht, if_true]
  · intro heq
    rw [← heq] at hn
    rw [hget] at hn
    exact absurd (Option.some.inj hn) (by simp)

end Prep

/-- An unprepared spectrum of group OIII, first attributes only. -/
def prepExample : PrepState Unit :=
  { attrs := [("prepared_for_fitting", .bool false), ("linegroup_name", .str "OIII"),
      ("linenames_arr", .none)], gal := (), linked := false }

example : fitPrep linesetNamesStep [("linenames_arr", .none)] prepExample =
    ({ attrs := [("prepared_for_fitting", .bool true), ("linegroup_name", .str "OIII"),
      ("linenames_arr", .names ["OIII5008", "OIII4960"])], gal := (), linked := true }, none) := by
  decide +kernel
example : fitPrepRun linesetNamesStep [[], [], []] prepExample =
    ({ attrs := [("prepared_for_fitting", .bool true), ("linegroup_name", .str "OIII"),
      ("linenames_arr", .names ["OIII5008", "OIII4960"])], gal := (), linked := true }, none) := by
  decide +kernel

/-! ## C69: 1D line model objects -/

theorem Dict.get_update_notMem : ∀ (ps d : Dict V) (k : String), k ∉ ps.keys →
    (d.update ps).get k = d.get k := by
  intro ps
  induction ps with
  | nil => intro d k _; rfl
  | cons p ps ih =>
    intro d k hk
    have hk' : k ∉ p.1 :: Dict.keys ps := hk
    rw [List.mem_cons, not_or] at hk'
    show (Dict.update (d.set p.1 p.2) ps).get k = _
    rw [ih _ k hk'.2, Dict.get_set, if_neg (fun h => hk'.1 h.symm)]

/-- **C69**, negation (unknown keywords): the 1D line model objects accept any keyword and create
an attribute for it. -/
theorem C69_false_unknown (k : String) (v : V) (d : Dict V) :
    (setAttrAll [(k, v)] d).get k = some v := by
  show (d.set k v).get k = some v
  rw [Dict.get_set, if_pos rfl]

/-- **C69** (partial): line names given to a 1D line model are kept, and wavelengths and ratios
given together are kept.
Missing from the full claim: wavelengths without ratios, see `C69_false_waves`. -/
theorem C69_kept_partial (name : Option String) (s s' : LineSet) (h : setLines1D name s = .ok s') :
    (∀ x, s.names = some x → s'.names = some x) ∧
    (∀ w r, s.waves = some w → s.ratios = some r → s'.waves = some w ∧ s'.ratios = some r) ∧
    (s.waves = none ∨ s.ratios = none → ∃ ns w r, s' = ⟨some ns, some w, some r⟩ ∧
      readAll readRestwave ns = .ok w ∧ readAll readLineRatio ns = .ok r) := by
  unfold setLines1D at h
  split at h
  · exact absurd h (by simp)
  · rename_i ns hns
    have hnames : ∀ x, s.names = some x → x = ns := by
      intro x hx
      rw [hx] at hns
      exact Except.ok.inj hns
    split at h
    · rename_i w r hw hr
      have := (Except.ok.inj h).symm
      subst this
      refine ⟨fun x hx => by rw [hnames x hx], fun w' r' hw' hr' => ?_, fun h' => ?_⟩
      · rw [hw] at hw'; rw [hr] at hr'
        exact ⟨hw', hr'⟩
      · rcases h' with h' | h'
        · rw [hw] at h'; exact absurd h' (by simp)
        · rw [hr] at h'; exact absurd h' (by simp)
    · rename_i hno
      split at h
      · exact absurd h (by simp)
      · rename_i w hw
        split at h
        · exact absurd h (by simp)
        · rename_i r hr
          have := (Except.ok.inj h).symm
          subst this
          refine ⟨fun x hx => by rw [hnames x hx], fun w' r' hw' hr' => ?_, fun _ =>
            ⟨ns, w, r, rfl, hw, hr⟩⟩
          exact absurd hr' (hno w' r' hw')

/-- **C69**, exact condition: rest wavelengths given to a 1D line model are kept exactly if ratios are given too, or they are the
wavelengths of the tables for the names in use. -/
theorem C69_exact (name : Option String) (s s' : LineSet) (w : List ℚ) (h : setLines1D name s = .ok s') (hw : s.waves = some w) :
    s'.waves = some w ↔ (∃ r, s.ratios = some r) ∨ ∃ ns, s'.names = some ns ∧ readAll readRestwave ns = .ok w := by
  obtain ⟨-, hk, hm⟩ := C69_kept_partial name s s' h
  cases hr : s.ratios with
  | some r => exact ⟨fun _ => Or.inl ⟨r, rfl⟩, fun _ => (hk w r hw hr).1⟩
  | none =>
    obtain ⟨ns, w', r', rfl, h1, -⟩ := hm (Or.inr hr)
    constructor
    · intro he
      cases he
      exact Or.inr ⟨ns, rfl, h1⟩
    · rintro (⟨r, hr⟩ | ⟨ns', hn, h2⟩)
      · cases hr
      · cases hn
        rw [h1] at h2
        cases h2
        rfl

/-- **C69**, negation (wavelengths): rest wavelengths given without flux ratios are overwritten by
the table, and lines that are not in the table cannot be used. -/
theorem C69_false_waves :
    setLines1D none ⟨some ["HA6565"], some [6562.8], none⟩ =
      .ok ⟨some ["HA6565"], some [6564.60], some [1]⟩ ∧
    setLines1D none ⟨some ["PaA"], some [18756.1], none⟩ = .error .valueError := by
  constructor <;> decide +kernel

example : setLines1D none ⟨some ["PaA"], some [18756.1], some [1]⟩ =
    .ok ⟨some ["PaA"], some [18756.1], some [1]⟩ := by decide +kernel

/-! ## C70: models are independent of each other -/

section Shared
variable {α β : Type}

/-- **C70** (partial): whatever is done to other models, in any order, does not change the inputs
of a model, provided the others use other parameter arrays and other intensity profiles.
Missing from the full claim: models sharing the default objects, see `C70_false`. -/
theorem C70_frame_partial (m : ModelObj) :
    ∀ (ops : List (ModelOp α β)) (h : Heap α β),
      (∀ op ∈ ops, op.target.thetaRef ≠ m.thetaRef ∧ op.target.intRef ≠ m.intRef) →
      modelInputs (runOps h ops) m = modelInputs h m := by
  intro ops
  induction ops with
  | nil => intro h _; rfl
  | cons op ops ih =>
    intro h hops
    obtain ⟨h1, h2⟩ := hops op (by simp)
    have hrest := fun op' h' => hops op' (List.mem_cons_of_mem _ h')
    cases op with
    | new g m' =>
      rw [runOps, ih _ hrest]
      unfold modelInputs newModel
      have h2' : m.intRef ≠ m'.intRef := fun h => h2 h.symm
      simp only [Function.update_of_ne h2']
    | fit m' f =>
      rw [runOps, ih _ hrest]
      unfold modelInputs writeParams
      have h1' : m.thetaRef ≠ m'.thetaRef := fun h => h1 h.symm
      split
      · simp only [Function.update_of_ne h1']
      · rfl

/-- **C70** (own operations): a model built for a galaxy has that galaxy's values, and after an
accepted update the parameter vector is the unpacked one. -/
theorem C70_own (m : ModelObj) (h : Heap α β) (g : β) (fit : List α)
    (hlen : m.vary.length = (h.theta m.thetaRef).length) (hfit : fit.length = m.vary.count true) :
    (modelInputs (runOps h [.new g m, .fit m fit]) m).2 = g ∧
    IsUnpack (h.theta m.thetaRef) m.vary fit
      (modelInputs (runOps h [.new g m, .fit m fit]) m).1 := by
  simp only [runOps, newModel, writeParams, modelInputs, if_pos hfit, Function.update_self]
  exact ⟨trivial, updateParameters_length _ _ _, updateParameters_get _ _ _ hlen hfit⟩

/-- **C70**, negation: for two models built with the default intensity profile the first one gets
the light profile of the galaxy of the second, for all galaxies. -/
theorem C70_false (h : Heap α β) (t t' i : Nat) (v v' : List Bool) (g g' : β) :
    (modelInputs (runOps h [.new g ⟨t, v, i⟩, .new g' ⟨t', v', i⟩]) ⟨t, v, i⟩).2 = g' := by
  simp only [runOps, newModel, modelInputs, Function.update_self]

/-- **C70**, negation (parameters): for two models built with the default parameter settings but
different vary masks, fitting the second changes a fixed parameter of the first. -/
theorem C70_false_fixed : ∃ (h : Heap ℚ Unit) (m m' : ModelObj),
    m.thetaRef = m'.thetaRef ∧ m.vary = [true, false] ∧
    (modelInputs h m).1 = [1, 2] ∧
    (modelInputs (runOps h [.fit m' [7]]) m).1 = [1, 7] := by
  refine ⟨⟨fun _ => [1, 2], fun _ => ()⟩, ⟨0, [true, false], 0⟩, ⟨0, [false, true], 0⟩, rfl, rfl,
    rfl, by decide +kernel⟩

theorem updateParameters_fixed : ∀ (theta : List α) (vary : List Bool) (fit : List α), (∀ b ∈ vary, b = false) →
    (updateParameters theta vary fit).1 = theta
  | [], _, _, _ => rfl
  | _ :: _, [], _, _ => rfl
  | t :: ts, false :: vs, fit, h => by
      simp only [updateParameters]
      rw [updateParameters_fixed ts vs fit fun b hb => h b (List.mem_cons_of_mem _ hb)]
  | _ :: _, true :: _, _, h => absurd (h true (List.mem_cons_self ..)) (by simp)

/-- **C70**, exact condition: nothing done to a model ever changes the inputs of another one exactly if they do not share the
intensity profile and either do not share the parameter array or the former has no free parameter. -/
theorem C70_exact [Nontrivial α] [Nontrivial β] (m m' : ModelObj) :
    (∀ (h : Heap α β) (ops : List (ModelOp α β)), (∀ op ∈ ops, op.target = m') →
      modelInputs (runOps h ops) m = modelInputs h m) ↔
    m'.intRef ≠ m.intRef ∧ (m'.thetaRef ≠ m.thetaRef ∨ ∀ b ∈ m'.vary, b = false) := by
  constructor
  · intro hall
    obtain ⟨a, b, hab⟩ := exists_pair_ne α
    obtain ⟨g, g', hg⟩ := exists_pair_ne β
    constructor
    · intro he
      have := hall ⟨fun _ => [], fun _ => g⟩ [.new g' m'] (by simp [ModelOp.target])
      simp only [runOps, newModel, modelInputs, he, Function.update_self, Prod.mk.injEq, true_and] at this
      exact hg this.symm
    · by_contra hno
      push Not at hno
      obtain ⟨he, x, hx, hxf⟩ := hno
      have hxt : x = true := by simpa using hxf
      subst hxt
      obtain ⟨i, hi, hix⟩ := List.mem_iff_getElem.1 hx
      have h2 := hall ⟨fun _ => List.replicate m'.vary.length a, fun _ => g⟩
        [.fit m' (List.replicate (m'.vary.count true) b)] (by simp [ModelOp.target])
      have h3 := updateParameters_get (List.replicate m'.vary.length a) m'.vary
        (List.replicate (m'.vary.count true) b) (by simp) (by simp)
      simp only [runOps, writeParams, modelInputs, he, List.length_replicate, if_true, Function.update_self,
        Prod.mk.injEq, and_true] at h2
      rw [h2] at h3
      have h4 := h3 i (by simpa using hi)
      rw [List.getElem?_eq_getElem hi, hix, if_pos rfl, List.getElem?_replicate, List.getElem?_replicate, if_pos hi] at h4
      split at h4
      · exact hab (Option.some.inj h4)
      · cases h4
  · rintro ⟨h1, h2⟩ h ops hops
    induction ops generalizing h with
    | nil => rfl
    | cons op ops ih =>
      have ht := hops op (List.mem_cons_self ..)
      have hrest := fun op' h' => hops op' (List.mem_cons_of_mem _ h')
      cases op with
      | new g m'' =>
        cases ht
        rw [runOps, ih _ hrest]
        unfold modelInputs newModel
        simp only [ModelOp.target] at h1
        simp only [Function.update_of_ne (Ne.symm h1)]
      | fit m'' f =>
        cases ht
        rw [runOps, ih _ hrest]
        unfold modelInputs writeParams
        simp only [ModelOp.target] at h1 h2
        split
        · rcases h2 with h2 | h2
          · simp only [Function.update_of_ne (Ne.symm h2)]
          · simp only [updateParameters_fixed _ _ _ h2, Function.update_eq_self]
        · rfl

example : modelInputs (runOps (⟨fun _ => [1, 2], fun _ => 0⟩ : Heap ℚ ℚ)
    [.new 5 ⟨0, [true, false], 0⟩, .new 6 ⟨1, [true, true], 1⟩, .fit ⟨1, [true, true], 1⟩ [8, 9]])
    ⟨0, [true, false], 0⟩ = ([1, 2], 5) := by decide +kernel

end Shared

end Misfit
