import Verif.Lemmas.Fit1DObj

/-!
# C131-C133: redshift and errors of the 1D fit object
-/

namespace Misfit
variable {K : Type} [Field K] [LinearOrder K] [IsStrictOrderedRing K] [FloorRing K]

/-- A value respects the bounds of its parameter. -/
def LmPar.Admits (p : LmPar K) (v : K) : Prop :=
  (∀ l, p.lo = some l → l ≤ v) ∧ ∀ h, p.hi = some h → v ≤ h

/-- The bounds of a parameter leave room. -/
def LmPar.Room (p : LmPar K) : Prop := ∀ l h, p.lo = some l → p.hi = some h → l ≤ h

/-- A minimiser that keeps all parameters within their bounds whenever these leave room, and
returns one value per parameter. -/
def Lm1.Respects (O : Lm1 K) : Prop :=
  ∀ q : Problem1D K, q.params.z.Room → q.params.velDisp.Room → (∀ p ∈ q.params.flux, p.Room) →
    (∀ p ∈ q.params.cont, p.Room) →
    q.params.z.Admits (O.minimize q).z ∧ q.params.velDisp.Admits (O.minimize q).velDisp ∧
    List.Forall₂ LmPar.Admits q.params.flux (O.minimize q).flux ∧
    List.Forall₂ LmPar.Admits q.params.cont (O.minimize q).cont

/-- A sequence of calls of `fit` on one object, exceptions caught. -/
def runFits (O : Lm1 K) (g : Gal1D K) :
    List (Option K × Fit1DCall) → F1 K × Files1 K → F1 K × Files1 K
  | [], s => s
  | (res, c) :: cs, s => runFits O g cs (F1.fit O res g c s.1 s.2).1

/-! ## C131 -/

/-- At redshift `v` the line of rest wavelength `w` is at most `d` from where it is at `zg`. -/
def InWindow (w d zg v : K) : Prop := |(1 + v) * w - (1 + zg) * w| ≤ d

theorem inWindow_of_bounds {w d zg v : K} (hw : 0 < w) (h1 : zg - d / w ≤ v)
    (h2 : v ≤ zg + d / w) : InWindow w d zg v := by
  unfold InWindow
  have e : (1 + v) * w - (1 + zg) * w = (v - zg) * w := by ring
  rw [e, abs_le]
  have h3 : (v - zg) ≤ d / w := by linarith
  have h4 : -(d / w) ≤ (v - zg) := by linarith
  constructor
  · have := mul_le_mul_of_nonneg_right h4 hw.le
    rw [neg_mul, div_mul_cancel₀ _ hw.ne'] at this
    exact this
  · have := mul_le_mul_of_nonneg_right h3 hw.le
    rw [div_mul_cancel₀ _ hw.ne'] at this
    exact this

/-- The result of the minimisations is the result of one of them. -/
theorem bestFit_mem (mini : Bool → Bool → Fit1DResult K) : ∃ b1 b2, bestFit mini = mini b1 b2 := by
  unfold bestFit refit
  simp only
  split
  · exact ⟨_, _, rfl⟩
  · split
    · exact ⟨_, _, rfl⟩
    · exact ⟨_, _, rfl⟩

/-- One call of `fit`: settings kept, redshift old or in the window, new files in the window. -/
theorem fit_window (O : Lm1 K) (hO : O.Respects) (res : Option K) (g : Gal1D K) (c : Fit1DCall)
    (o : F1 K) (files : Files1 K) (zg : PyNum K) (hz : g.z = some zg) (w : K) (ws : List K)
    (rest : List (List K)) (hr : o.restwave = some ((w :: ws) :: rest)) (hw : 0 < w)
    (hd : 0 ≤ o.delLam) :
    let out := (F1.fit O res g c o files).1
    out.1.restwave = o.restwave ∧ out.1.delLam = o.delLam ∧
    (out.1.z = o.z ∨ ∃ v, out.1.z = some v ∧ InWindow w o.delLam zg.val v) ∧
    ∀ k, out.2 k = files k ∨ ∃ m, out.2 k = some m ∧
      ∀ row ∈ m.rows, ∃ v, row[0]? = some v ∧ InWindow w o.delLam zg.val v := by
  intro out
  rcases fit_cases O res g c o files with ⟨o', e, h, h'⟩ | ⟨r, zg', ns, p, t, lines, -, -, hz', -, hp,
    -, -, h⟩
  · have : out = (o', files) := congrArg Prod.fst h
    rw [this]
    rcases h' with rfl | rfl
    · exact ⟨rfl, rfl, .inl rfl, fun k => .inl rfl⟩
    · exact ⟨initCont_restwave _, initCont_delLam _, .inl (initCont_z _), fun k => .inl rfl⟩
  · rw [hz] at hz'
    obtain rfl := Option.some.inj hz'
    obtain ⟨hb, -⟩ := start_ok hp
    have hb' := zBounds_ok hb (by rw [initCont_restwave]; exact hr) hw
      (by rw [initCont_delLam]; exact hd)
    rw [initCont_delLam] at hb'
    have hroom : p.b.1 ≤ p.b.2 := by
      rw [hb']
      have : 0 ≤ o.delLam / w := div_nonneg hd hw.le
      simp only
      linarith
    have hwin : ∀ q : Problem1D K, q.params.z.lo = some p.b.1 → q.params.z.hi = some p.b.2 →
        q.params.velDisp.hi = none → (∀ p ∈ q.params.flux, p.hi = none) →
        (∀ p ∈ q.params.cont, p.hi = none) →
        InWindow w o.delLam zg.val (O.minimize q).z := by
      intro q hlo hhi hv hf hc
      have room : ∀ p : LmPar K, p.hi = none → p.Room := by
        intro p hp l h _ hh; rw [hp] at hh; exact absurd hh (by simp)
      obtain ⟨⟨h1, h2⟩, -⟩ := hO q (by
        intro l h hl hh
        rw [hlo] at hl; rw [hhi] at hh
        rw [← Option.some.inj hl, ← Option.some.inj hh]; exact hroom) (room _ hv)
        (fun p hp => room p (hf p hp)) (fun p hp => room p (hc p hp))
      apply inWindow_of_bounds hw
      · have := h1 _ hlo; rw [hb'] at this; exact this
      · have := h2 _ hhi; rw [hb'] at this; exact this
    have : out = ((F1.fitRun O r g files c o.initCont p t lines
        (2 + ns.length + (o.contOrder + 1))).1) := congrArg Prod.fst h
    rw [this]
    unfold F1.fitRun
    simp only [store_restwave, store_delLam, initCont_restwave, initCont_delLam, true_and]
    constructor
    · rw [store_z]
      rcases fit1D_state r (fun vb fb => O.minimize ⟨lines, p.params vb fb, t⟩)
        ((o.initCont.matrix O files c lines p.b t (2 + ns.length + (o.contOrder + 1))
          (bestFit fun vb fb => O.minimize ⟨lines, p.params vb fb, t⟩)).map Mat1.cols)
        (c.args g.hasID) with h1 | h1
      · rw [h1]
        exact .inl (initCont_z _)
      · rw [h1]
        right
        obtain ⟨b1, b2, hbf⟩ := bestFit_mem fun vb fb => O.minimize ⟨lines, p.params vb fb, t⟩
        rw [hbf]
        exact ⟨_, rfl, hwin _ rfl rfl rfl (by simp [Start1D.params]) (by simp [Start1D.params])⟩
    · intro k
      split
      · rename_i f m hs hf hm
        by_cases hk : k = f
        · right
          refine ⟨m, if_pos hk, ?_⟩
          unfold F1.matrix at hm
          have hrl : c.reloadErrors = false := by
            have := (Bool.and_eq_true _ _).mp hs
            have := this.1
            unfold Fit1DCall.saves at this
            cases hc : c.reloadErrors
            · rfl
            · rw [hc] at this; simp at this
          rw [hrl] at hm
          simp only [Bool.false_eq_true, if_false, Except.ok.injEq] at hm
          subst hm
          intro row hrow
          obtain ⟨i, -, rfl⟩ := List.mem_map.1 hrow
          exact ⟨_, rfl, hwin _ rfl rfl rfl (by simp [mcParams]) (by simp [mcParams])⟩
        · exact .inl (if_neg hk)
      · exact .inl rfl

/-- **C131**: whatever calls of `fit` are made on a freshly set up 1D fit object, with a minimiser
that respects bounds, the redshift of the object and every redshift in a Monte Carlo matrix that
was written keep the first line within `del_obs_lam` of its place at the galaxy's redshift. -/
theorem C131_redshift_window (O : Lm1 K) (hO : O.Respects) (g : Gal1D K) (zg : PyNum K)
    (hz : g.z = some zg) (calls : List (Option K × Fit1DCall)) (o : F1 K) (files : Files1 K) (w : K)
    (ws : List K) (rest : List (List K)) (hr : o.restwave = some ((w :: ws) :: rest)) (hw : 0 < w)
    (hd : 0 ≤ o.delLam) (ho : o.z = some zg.val) :
    (∃ v, (runFits O g calls (o, files)).1.z = some v ∧ InWindow w o.delLam zg.val v) ∧
    ∀ k, (runFits O g calls (o, files)).2 k = files k ∨
      ∃ m, (runFits O g calls (o, files)).2 k = some m ∧
        ∀ row ∈ m.rows, ∃ v, row[0]? = some v ∧ InWindow w o.delLam zg.val v := by
  have hstart : ∃ v, o.z = some v ∧ InWindow w o.delLam zg.val v :=
    ⟨_, ho, by unfold InWindow; rw [sub_self, abs_zero]; exact hd⟩
  clear ho
  induction calls generalizing o files with
  | nil => exact ⟨hstart, fun k => .inl rfl⟩
  | cons a cs ih =>
    obtain ⟨res, c⟩ := a
    obtain ⟨h1, h2, h3, h4⟩ := fit_window O hO res g c o files zg hz w ws rest hr hw hd
    have := ih (F1.fit O res g c o files).1.1 (F1.fit O res g c o files).1.2 (h1.trans hr)
      (by rw [h2]; exact hd) (by
        rw [h2]
        rcases h3 with h3 | h3
        · rw [h3]; exact hstart
        · exact h3)
    rw [h2] at this
    refine ⟨this.1, fun k => ?_⟩
    rcases this.2 k with h5 | h5
    · rcases h4 k with h6 | ⟨m, h6, h7⟩
      · exact .inl (h5.trans h6)
      · exact .inr ⟨m, h5.trans h6, h7⟩
    · exact .inr h5

/-! ## C132: errors -/

/-- One error pair of a value and the Monte Carlo values of its parameter: the distances to the
two percentiles. -/
def ErrorOf (col : List K) (v : K) (e : K × K) : Prop :=
  ∃ lo hi, percentile col 15.865 = .ok lo ∧ percentile col 84.135 = .ok hi ∧
    e = (v - lo, hi - v)

theorem mcLimits_spec : ∀ (cols : List (List K)) (lims : List (K × K)), mcLimits cols = .ok lims →
    List.Forall₂ (fun col l => limits1 col = .ok l) cols lims
  | [], lims, h => by
      simp only [mcLimits, Except.ok.injEq] at h
      subst h; exact .nil
  | col :: cols, lims, h => by
      unfold mcLimits at h
      cases h1 : limits1 col with
      | error e => rw [h1] at h; simp at h
      | ok l =>
        rw [h1] at h
        simp only at h
        cases h2 : mcLimits cols with
        | error e => rw [h2] at h; simp at h
        | ok ls =>
          rw [h2] at h
          simp only [Except.ok.injEq] at h
          subst h
          exact .cons h1 (mcLimits_spec cols ls h2)

theorem mcErrors_spec (vals : List K) (cols : List (List K)) (es : List (K × K))
    (hlen : cols.length = vals.length) (h : mcErrors vals cols = .ok es) :
    es.length = vals.length ∧ ∀ (j : Nat) col v, cols[j]? = some col → vals[j]? = some v →
      ∃ e, es[j]? = some e ∧ ErrorOf col v e := by
  unfold mcErrors at h
  cases hl : mcLimits cols with
  | error e => rw [hl] at h; simp at h
  | ok lims =>
    rw [hl] at h
    have hf := mcLimits_spec cols lims hl
    have h2 : lims.length = vals.length := by rw [← hf.length_eq, hlen]
    simp only [if_pos h2, Except.ok.injEq] at h
    subst h
    refine ⟨by simp [h2], ?_⟩
    intro j col v hc hv
    have hjc : j < cols.length := (List.getElem?_eq_some_iff.1 hc).1
    have hjl : j < lims.length := by rw [← hf.length_eq]; exact hjc
    have hlim := (List.forall₂_iff_get.1 hf).2 j hjc hjl
    have hcol : cols.get ⟨j, hjc⟩ = col := by
      simpa using (List.getElem?_eq_some_iff.1 hc).2
    rw [hcol] at hlim
    refine ⟨(v - (lims.get ⟨j, hjl⟩).1, (lims.get ⟨j, hjl⟩).2 - v), ?_, ?_⟩
    · rw [List.getElem?_zipWith, hv, List.getElem?_eq_getElem hjl]
      rfl
    · unfold limits1 percentilePair at hlim
      cases hp1 : percentile col 15.865 with
      | error e => rw [hp1] at hlim; simp at hlim
      | ok lo =>
        cases hp2 : percentile col 84.135 with
        | error e => rw [hp1, hp2] at hlim; simp at hlim
        | ok hi =>
          rw [hp1, hp2] at hlim
          simp only [Except.ok.injEq] at hlim
          exact ⟨lo, hi, hp1, hp2, by rw [← hlim]⟩

/-- Column `j` of a stored matrix -/
def Mat1.col (m : Mat1 K) (j : Nat) : List K := m.rows.filterMap fun r => r[j]?

/-- A minimiser that returns one flux and one coefficient per parameter -/
def Lm1.Shaped (O : Lm1 K) : Prop :=
  ∀ q, (O.minimize q).flux.length = q.params.flux.length ∧
    (O.minimize q).cont.length = q.params.cont.length

omit [IsStrictOrderedRing K] [FloorRing K] in
theorem cols_get (m : Mat1 K) (j : Nat) (h : j < m.ncols) : m.cols[j]? = some (m.col j) := by
  unfold Mat1.cols Mat1.col
  rw [List.getElem?_map, List.getElem?_range h]
  rfl

/-- **C132**: when a call of `fit` with error estimation leaves errors behind, the Monte Carlo matrix
is in the given file, and the errors of the redshift, of the dispersion, of each flux and of each
continuum coefficient are the distances of the best fit to the 15.865th and 84.135th percentile of
the corresponding column.  A reloaded matrix has to have one column per parameter. -/
theorem C132_errors (O : Lm1 K) (hO : O.Shaped) (res : Option K) (g : Gal1D K) (c : Fit1DCall)
    (o : F1 K) (files : Files1 K) (hc : c.noErrors = false) (h0 : o.zErr = none)
    (hfiles : c.reloadErrors = true → ∀ f m ns, c.errFile = some f → files f = some m →
      o.names = some ns → m.ncols = 2 + ns.length + (o.contOrder + 1))
    (ez : K × K) (hez : (F1.fit O res g c o files).1.1.zErr = some ez) :
    ∃ f m z fs cs ev efs ecs, c.errFile = some f ∧ (F1.fit O res g c o files).1.2 f = some m ∧
      (F1.fit O res g c o files).1.1.z = some z ∧
      (F1.fit O res g c o files).1.1.flux = some fs ∧
      (F1.fit O res g c o files).1.1.cont = some cs ∧
      (F1.fit O res g c o files).1.1.velErr = some ev ∧
      (F1.fit O res g c o files).1.1.fluxErr = some efs ∧
      (F1.fit O res g c o files).1.1.contErr = some ecs ∧
      efs.length = fs.length ∧ ecs.length = cs.length ∧
      ErrorOf (m.col 0) z ez ∧
      ErrorOf (m.col 1) (F1.fit O res g c o files).1.1.velDisp ev ∧
      (∀ (i : Nat) v, fs[i]? = some v → ∃ e, efs[i]? = some e ∧ ErrorOf (m.col (2 + i)) v e) ∧
      ∀ (i : Nat) v, cs[i]? = some v →
        ∃ e, ecs[i]? = some e ∧ ErrorOf (m.col (2 + fs.length + i)) v e := by
  rcases fit_cases O res g c o files with ⟨o', e, h, h'⟩ | ⟨r, zg, ns, p, t, lines, -, -, -, hn, hp,
    -, -, h⟩
  · exfalso
    rw [h] at hez
    rcases h' with rfl | rfl
    · rw [h0] at hez; exact absurd hez (by simp)
    · rw [initCont_zErr, h0] at hez; exact absurd hez (by simp)
  · rw [h] at hez ⊢
    set n := 2 + ns.length + (o.contOrder + 1) with hndef
    unfold F1.fitRun at hez ⊢
    set mini : Bool → Bool → Fit1DResult K :=
      fun vb fb => O.minimize ⟨lines, p.params vb fb, t⟩ with hmini
    set m := o.initCont.matrix O files c lines p.b t n (bestFit mini) with hm
    set out := fit1D (some r) mini (m.map Mat1.cols) (c.args g.hasID) ⟨none, none⟩ with hout
    simp only at hez ⊢
    rw [store_zErr, initCont_zErr, h0] at hez
    cases hes : out.1.errors with
    | none => rw [hes] at hez; exact absurd hez (by simp)
    | some es =>
      rw [hes] at hez
      simp only at hez
      obtain ⟨h1, h2, h3, h4, h5, cs, h6, h7⟩ :=
        fit1D_errors r mini (m.map Mat1.cols) (c.args g.hasID) hc es hes
      obtain ⟨f, hf⟩ := Option.isSome_iff_exists.1 h1
      cases hmm : m with
      | error e => rw [hmm] at h6; exact absurd h6 (by simp [Except.map])
      | ok M =>
        rw [hmm] at h6
        have h6' : M.cols = cs := Except.ok.inj h6
        subst h6'
        -- sizes
        obtain ⟨b1, b2, hbf⟩ := bestFit_mem mini
        obtain ⟨-, -, -, ns', fl, ct, hns', -, -, hfl, hpf, hct, hpc⟩ := start_ok hp
        rw [initCont_names, hn] at hns'
        obtain rfl := Option.some.inj hns'
        rw [initCont_contOrder] at hct hpc
        have hsh := hO ⟨lines, p.params b1 b2, t⟩
        have hlf : (bestFit mini).flux.length = ns.length := by
          rw [hbf]; refine hsh.1.trans ?_
          simp [Start1D.params, hpf, hfl]
        have hlc : (bestFit mini).cont.length = o.contOrder + 1 := by
          rw [hbf]; refine hsh.2.trans ?_
          simp [Start1D.params, hpc, hct]
        have hM : M.ncols = n ∧ (c.reloadErrors = true → files f = some M) := by
          rw [hmm] at hm
          unfold F1.matrix at hm
          cases hrl : c.reloadErrors with
          | false =>
            rw [hrl] at hm
            simp only [Bool.false_eq_true, if_false, Except.ok.injEq] at hm
            exact ⟨by rw [hm]; rfl, by simp⟩
          | true =>
            rw [hrl, hf] at hm
            simp only [if_true] at hm
            cases hff : files f with
            | none => rw [hff] at hm; exact absurd hm (by simp)
            | some M' =>
              rw [hff] at hm
              simp only [Except.ok.injEq] at hm
              exact ⟨by rw [hm]; exact hfiles hrl f M' ns hf hff hn, fun _ => by rw [hm]⟩
        have hcl : M.cols.length = M.ncols := by simp [Mat1.cols]
        have hrow : (bestFit mini).row.length = n := by
          simp only [Fit1DResult.row, List.length_append, List.length_cons, List.length_nil, hlf,
            hlc, hndef]
        obtain ⟨hel, hspec⟩ := mcErrors_spec _ _ es (by rw [hcl, hM.1, hrow]) h7
        rw [hrow] at hel
        have hcol : ∀ j v, (bestFit mini).row[j]? = some v →
            ∃ e, es[j]? = some e ∧ ErrorOf (M.col j) v e := by
          intro j v hv
          have hj : j < M.ncols := by
            rw [hM.1, ← hrow]; exact (List.getElem?_eq_some_iff.1 hv).1
          exact hspec j _ v (cols_get M j hj) hv
        have hst : o.initCont.store out.1 = { o.initCont with
            z := some (bestFit mini).z, velDisp := (bestFit mini).velDisp,
            flux := some (bestFit mini).flux, cont := some (bestFit mini).cont,
            zErr := es[0]?, velErr := es[1]?, fluxErr := some ((es.drop 2).take ns.length),
            contErr := some ((es.drop (2 + ns.length)).take (o.contOrder + 1)) } := by
          unfold F1.store
          rw [h2, hes]
          simp only [initCont_names, hn, initCont_contOrder, Option.getD_some]
        rw [hst]
        obtain ⟨e0, he0, hE0⟩ := hcol 0 _ rfl
        obtain ⟨e1, he1, hE1⟩ := hcol 1 _ rfl
        rw [hez] at he0
        obtain rfl := Option.some.inj he0
        refine ⟨f, M, _, _, _, e1, _, _, hf, ?_, rfl, rfl, rfl, he1, rfl, rfl, ?_, ?_, hE0, hE1,
          ?_, ?_⟩
        · rw [hf]
          cases hsv : c.saves g.hasID && (mini false false).flux[0]?.isSome with
          | true =>
            have hmm' : o.initCont.matrix O files c lines p.b t n (bestFit mini) = .ok M := hmm
            rw [hmm']
            exact if_pos rfl
          | false =>
            show files f = some M
            have : c.reloadErrors = true := by
              rw [h5, Bool.and_true] at hsv
              unfold Fit1DCall.saves at hsv
              have h3' : g.hasID = true := h3
              have h4' : c.noPlot = true ∨ c.plotFile.isSome = true := h4
              rw [h3', hc] at hsv
              rcases h4' with h4' | h4' <;> rw [h4'] at hsv <;> simpa using hsv
            exact hM.2 this
        · simp only [List.length_take, List.length_drop, hel, hlf, hndef]; omega
        · simp only [List.length_take, List.length_drop, hel, hlc, hndef]; omega
        · intro i v hv
          have hi : i < ns.length := by rw [← hlf]; exact (List.getElem?_eq_some_iff.1 hv).1
          obtain ⟨e, he, hE⟩ := hcol (2 + i) v (by
            unfold Fit1DResult.row
            rw [List.append_assoc, List.getElem?_append_right (by simp)]
            simp only [List.length_cons, List.length_nil]
            rw [show 2 + i - (0 + 1 + 1) = i by omega, List.getElem?_append_left (by omega), hv])
          refine ⟨e, ?_, hE⟩
          rw [List.getElem?_take_of_lt hi, List.getElem?_drop, he]
        · intro i v hv
          have hi : i < o.contOrder + 1 := by rw [← hlc]; exact (List.getElem?_eq_some_iff.1 hv).1
          rw [hlf]
          obtain ⟨e, he, hE⟩ := hcol (2 + ns.length + i) v (by
            unfold Fit1DResult.row
            rw [List.getElem?_append_right (by simp [hlf]; omega)]
            simp only [List.length_append, List.length_cons, List.length_nil, hlf]
            rw [show 2 + ns.length + i - (0 + 1 + 1 + ns.length) = i by omega, hv])
          refine ⟨e, ?_, hE⟩
          rw [List.getElem?_take_of_lt hi, List.getElem?_drop, he]

/-! ## A concrete object -/

/-- A value moved inside the bounds of its parameter -/
def clipPar (p : LmPar ℚ) (v : ℚ) : ℚ :=
  let v1 := match p.hi with | some h => min v h | none => v
  match p.lo with | some l => max l v1 | none => v1

theorem clipPar_admits (p : LmPar ℚ) (hp : p.Room) (v : ℚ) : p.Admits (clipPar p v) := by
  obtain ⟨x, lo, hi⟩ := p
  unfold LmPar.Admits clipPar
  cases lo <;> cases hi <;> simp
  exact hp _ _ rfl rfl

/-- The first flux value of a spectrum, 0 without one -/
def firstFlux (s : Spec1D ℚ (Fl ℚ)) : ℚ :=
  match s.flux with
  | some (.fin x :: _) => x
  | _ => 0

/-- A minimiser for the examples: the redshift is the start plus the first flux divided by 1000, the
dispersion is the first flux, both moved into the bounds; the rest stays at the start. -/
def toyLm (rand : ℚ) : Lm1 ℚ where
  minimize q := ⟨clipPar q.params.z (q.params.z.value + firstFlux q.data / 1000),
    clipPar q.params.velDisp (firstFlux q.data), q.params.flux.map fun p => clipPar p p.value,
    q.params.cont.map fun p => clipPar p p.value⟩
  randn i _ := (i + 1) * rand

theorem toyLm_respects (r : ℚ) : (toyLm r).Respects := by
  intro q h1 h2 h3 h4
  refine ⟨clipPar_admits _ h1 _, clipPar_admits _ h2 _, ?_, ?_⟩
  · show List.Forall₂ _ q.params.flux (q.params.flux.map fun p => clipPar p p.value)
    rw [List.forall₂_map_right_iff, List.forall₂_same]
    exact fun p hp => clipPar_admits p (h3 p hp) _
  · show List.Forall₂ _ q.params.cont (q.params.cont.map fun p => clipPar p p.value)
    rw [List.forall₂_map_right_iff, List.forall₂_same]
    exact fun p hp => clipPar_admits p (h4 p hp) _

theorem toyLm_shaped (r : ℚ) : (toyLm r).Shaped := by
  intro q
  exact ⟨List.length_map _, List.length_map _⟩

/-- A spectrum of a galaxy at redshift 2 around Hβ (first eight pixels) and Hα -/
def toySpec : Spec1D ℚ (Fl ℚ) :=
  let w : List ℚ := [14450, 14480, 14510, 14540, 14570, 14600, 14630, 14660,
    19500, 19550, 19600, 19650, 19700, 19750, 19800, 19850]
  { wave := some w, obswave := some w, restwave := none,
    flux := some ((List.replicate 8 (Fl.fin 3)) ++ List.replicate 8 (Fl.fin 5)),
    err := some (List.replicate 16 (Fl.fin 1)), mask := some (List.replicate 16 (Fl.fin 1)) }

/-- The galaxy, with a numpy redshift -/
def toyGal : Gal1D ℚ := ⟨some (.numpy 2), true, some toySpec, 10, none⟩

/-- A fit object for Hα with three realisations, and the galaxy after its construction -/
def toyMake (line : String) : F1 ℚ × Gal1D ℚ × Option PyErr :=
  F1.make true toyGal
    { names := some [line], flux := some [7], velDisp := some 80, numMC := some 3 }

/-- The object is made without exception, at the galaxy's redshift, with the line of Hα; a fit
with errors writes a matrix of three rows and leaves errors: the hypotheses of C131 and C132 are
met. -/
example : (toyMake "Halpha").2.2 = none ∧
    (toyMake "Halpha").1.z = some 2 ∧ (toyMake "Halpha").2.1.z.map PyNum.val = some 2 ∧
    (toyMake "Halpha").1.restwave = some [[6564.60]] ∧ (toyMake "Halpha").1.delLam = 20 ∧
    (toyMake "Halpha").1.zErr = none ∧
    (F1.fit (toyLm 2) (some 40) (toyMake "Halpha").2.1
      { noPlot := true, errFile := some "err" } (toyMake "Halpha").1 fun _ => none).1.1.z
      = some (2 + 20 / 6564.60) ∧
    (F1.fit (toyLm 2) (some 40) (toyMake "Halpha").2.1
      { noPlot := true, errFile := some "err" } (toyMake "Halpha").1 fun _ => none).1.1.velDisp
      = 5 ∧
    ((F1.fit (toyLm 2) (some 40) (toyMake "Halpha").2.1
      { noPlot := true, errFile := some "err" } (toyMake "Halpha").1
      fun _ => none).1.2 "err").map (fun m => m.col 1) = some [7, 9, 11] := by
  decide +kernel

/-! ## C133: error bars -/

/-- **C133**, negation: there is a minimiser that respects all bounds and a fit with errors whose
lower error of the dispersion is negative: the best fit lies below the percentile interval of the
Monte Carlo values. -/
theorem C133_false : (toyLm 2).Respects ∧
    ∃ lower upper, (F1.fit (toyLm 2) (some 40) (toyMake "Halpha").2.1
      { noPlot := true, errFile := some "err" } (toyMake "Halpha").1 fun _ => none).1.1.velErr
      = some (lower, upper) ∧ lower < 0 := by
  refine ⟨toyLm_respects 2, ?_⟩
  have h : ((F1.fit (toyLm 2) (some 40) (toyMake "Halpha").2.1
      { noPlot := true, errFile := some "err" } (toyMake "Halpha").1 fun _ => none).1.1.velErr).any
      (fun e => decide (e.1 < 0)) = true := by decide +kernel
  generalize (F1.fit (toyLm 2) (some 40) (toyMake "Halpha").2.1
      { noPlot := true, errFile := some "err" } (toyMake "Halpha").1 fun _ => none).1.1.velErr = e
    at h ⊢
  cases e with
  | none => exact absurd h (by simp)
  | some e => exact ⟨e.1, e.2, rfl, by simpa using h⟩

/-- Lower and upper error add up to the width of the percentile interval, which is not negative;
both are non-negative exactly when the value lies in that interval. -/
theorem errorOf_width (col : List K) (v : K) (e : K × K) (h : ErrorOf col v e) :
    ∃ lo hi, percentile col 15.865 = .ok lo ∧ percentile col 84.135 = .ok hi ∧
      e.1 + e.2 = hi - lo ∧ 0 ≤ hi - lo ∧ ((0 ≤ e.1 ∧ 0 ≤ e.2) ↔ lo ≤ v ∧ v ≤ hi) := by
  obtain ⟨lo, hi, h1, h2, rfl⟩ := h
  have hcol : col ≠ [] := by
    rintro rfl
    simp [percentile, lerpAt] at h1
  have := percentile_mono col _ _ lo hi hcol (by norm_num) (by norm_num) (by norm_num) h1 h2
  refine ⟨lo, hi, h1, h2, by simp, by linarith, ?_⟩
  simp

/-- The two percentiles between which a best fit has to lie. -/
def InsidePercentiles (col : List K) (v : K) : Prop :=
  ∃ lo hi, percentile col 15.865 = .ok lo ∧ percentile col 84.135 = .ok hi ∧ lo ≤ v ∧ v ≤ hi

theorem errorOf_exact (col : List K) (v : K) (e : K × K) (h : ErrorOf col v e) :
    0 ≤ e.1 + e.2 ∧ (0 ≤ e.1 ∧ 0 ≤ e.2 ↔ InsidePercentiles col v) := by
  obtain ⟨lo, hi, h1, h2, h3, h4, h5⟩ := errorOf_width col v e h
  refine ⟨h3 ▸ h4, h5.trans ⟨fun hv => ⟨lo, hi, h1, h2, hv⟩, ?_⟩⟩
  rintro ⟨lo', hi', g1, g2, hv⟩
  rw [h1] at g1
  rw [h2] at g2
  cases g1
  cases g2
  exact hv

/-- **C133** (partial): for errors left behind by a fit, lower and upper error of the redshift, of the dispersion, of each
flux and of each continuum coefficient add up to a non-negative width, and both are non-negative exactly if the best
fit lies between the two percentiles of the Monte Carlo values (in the file).
Missing from the full claim: best fits outside, see `C133_false`. -/
theorem C133_width_partial (O : Lm1 K) (hO : O.Shaped) (res : Option K) (g : Gal1D K) (c : Fit1DCall)
    (o : F1 K) (files : Files1 K) (hc : c.noErrors = false) (h0 : o.zErr = none)
    (hr : c.reloadErrors = false)
    (ez : K × K) (hez : (F1.fit O res g c o files).1.1.zErr = some ez) :
    ∃ f m z fs cs ev efs ecs, c.errFile = some f ∧ (F1.fit O res g c o files).1.2 f = some m ∧
      (F1.fit O res g c o files).1.1.z = some z ∧ (F1.fit O res g c o files).1.1.flux = some fs ∧
      (F1.fit O res g c o files).1.1.cont = some cs ∧ (F1.fit O res g c o files).1.1.velErr = some ev ∧
      (F1.fit O res g c o files).1.1.fluxErr = some efs ∧ (F1.fit O res g c o files).1.1.contErr = some ecs ∧
      (0 ≤ ez.1 + ez.2 ∧ (0 ≤ ez.1 ∧ 0 ≤ ez.2 ↔ InsidePercentiles (m.col 0) z)) ∧
      (0 ≤ ev.1 + ev.2 ∧ (0 ≤ ev.1 ∧ 0 ≤ ev.2 ↔ InsidePercentiles (m.col 1) (F1.fit O res g c o files).1.1.velDisp)) ∧
      (∀ (i : Nat) v, fs[i]? = some v → ∃ e, efs[i]? = some e ∧ 0 ≤ e.1 + e.2 ∧
        (0 ≤ e.1 ∧ 0 ≤ e.2 ↔ InsidePercentiles (m.col (2 + i)) v)) ∧
      ∀ (i : Nat) v, cs[i]? = some v → ∃ e, ecs[i]? = some e ∧ 0 ≤ e.1 + e.2 ∧
        (0 ≤ e.1 ∧ 0 ≤ e.2 ↔ InsidePercentiles (m.col (2 + fs.length + i)) v) := by
  obtain ⟨f, m, z, fs, cs, ev, efs, ecs, h1, h2, h3, h4, h5, h6, h7, h8, -, -, hE0, hE1, hE2, hE3⟩ :=
    C132_errors O hO res g c o files hc h0 (fun h => absurd (hr.symm.trans h) (by simp)) ez hez
  refine ⟨f, m, z, fs, cs, ev, efs, ecs, h1, h2, h3, h4, h5, h6, h7, h8, errorOf_exact _ _ _ hE0, errorOf_exact _ _ _ hE1,
    fun i v hv => ?_, fun i v hv => ?_⟩
  · obtain ⟨e, he, hE⟩ := hE2 i v hv
    exact ⟨e, he, errorOf_exact _ _ _ hE⟩
  · obtain ⟨e, he, hE⟩ := hE3 i v hv
    exact ⟨e, he, errorOf_exact _ _ _ hE⟩

end Misfit
