import Verif.Props.Fit1DObj
import Verif.Props.Fit1D

/-!
# C134-C140: using 1D fit objects
-/

namespace Misfit

section Use
variable {K : Type} [Field K] [LinearOrder K]

/-! ## C134: lines given to the fit -/

/-- An object with other line names and rest wavelengths -/
def F1.withLines (o : F1 K) (l : Option (List (List String))) (W : List (List K)) : F1 K :=
  { o with linenames := l, restwave := some W }

/-- **C134**, negation: line names and rest wavelengths given to the 1D fit are ignored, except the
first wavelength: with any other names and wavelengths that have the same first one, every call of
`fit` does the same (results, files and exception). -/
theorem C134_false [FloorRing K] (O : Lm1 K) (res : Option K) (g : Gal1D K) (c : Fit1DCall)
    (o : F1 K) (files : Files1 K) (l l' : Option (List (List String))) (w : K) (ws ws' : List K)
    (rest rest' : List (List K)) :
    F1.fit O res g c (o.withLines l' ((w :: ws') :: rest')) files =
      (((F1.fit O res g c (o.withLines l ((w :: ws) :: rest)) files).1.1.withLines l'
          ((w :: ws') :: rest'),
        (F1.fit O res g c (o.withLines l ((w :: ws) :: rest)) files).1.2),
       (F1.fit O res g c (o.withLines l ((w :: ws) :: rest)) files).2) := by
  have hc : ∀ (l : Option (List (List String))) W, (o.withLines l W).initCont =
      o.initCont.withLines l W := by
    intro l W
    obtain ⟨_, _, _, _, ct, _, _, _, _, _, _, _, _, _, _, _, _⟩ := o
    cases ct <;> rfl
  have hs : ∀ (l l' : Option (List (List String))) (a : F1 K) ws ws' rest rest' zg,
      (a.withLines l' ((w :: ws') :: rest')).start zg =
      (a.withLines l ((w :: ws) :: rest)).start zg := by
    intros; rfl
  have hst : ∀ (a : F1 K) (l : Option (List (List String))) W s,
      (a.withLines l W).store s = (a.store s).withLines l W := by
    intro a l W s
    unfold F1.store F1.withLines
    cases s.result <;> cases s.errors <;> rfl
  have hww : ∀ (a : F1 K) (l l' : Option (List (List String))) W W',
      (a.withLines l W).withLines l' W' = a.withLines l' W' := by intros; rfl
  unfold F1.fit
  cases res with
  | none => rfl
  | some r =>
    simp only
    split
    · rfl
    · have hn : ∀ (l : Option (List (List String))) W, (o.withLines l W).names = o.names := by
        intros; rfl
      have ho : ∀ (l : Option (List (List String))) W, (o.withLines l W).contOrder = o.contOrder := by
        intros; rfl
      simp only [hc, hn, ho]
      cases g.z with
      | none => rfl
      | some zg =>
        cases o.names with
        | none => rfl
        | some ns =>
          simp only
          rw [hs l l' o.initCont ws ws' rest rest']
          split
          · rfl
          · split
            · rfl
            · split
              · rfl
              · unfold F1.fitRun
                simp only [hst, hww]
                rfl

theorem readRow_both (n : String) (w : ℚ) (h : readRestwave n = .ok w) :
    ∃ r, readLineRatio n = .ok r := by
  unfold readRestwave at h
  unfold readLineRatio
  cases hr : readRow lineWavelengths (some n) with
  | error e => rw [hr] at h; exact absurd h (by simp)
  | ok r => exact ⟨r.2, rfl⟩

theorem readAll_both : ∀ (ns : List String) (ws : List ℚ), readAll readRestwave ns = .ok ws →
    ∃ rs, readAll readLineRatio ns = .ok rs ∧ rs.length = ws.length
  | [], ws, h => by
      simp only [readAll, Except.ok.injEq] at h
      subst h; exact ⟨[], rfl, rfl⟩
  | n :: ns, ws, h => by
      unfold readAll at h
      cases h1 : readRestwave n with
      | error e => rw [h1] at h; exact absurd h (by simp)
      | ok w =>
        rw [h1] at h
        simp only at h
        cases h2 : readAll readRestwave ns with
        | error e => rw [h2] at h; exact absurd h (by simp)
        | ok ws' =>
          rw [h2] at h
          simp only [Except.ok.injEq] at h
          subst h
          obtain ⟨r, hr⟩ := readRow_both n w h1
          obtain ⟨rs, hrs, hl⟩ := readAll_both ns ws' h2
          exact ⟨r :: rs, by rw [readAll, hr]; simp only [hrs], by simp [hl]⟩

/-- The lines of the model are the lines whose wavelengths are recorded. -/
theorem groups_waves : ∀ (ns : List String) (G : List (List String)) (W : List (List K)),
    readGroups ns = .ok G → readWaves G = .ok W →
    ∃ L, modelLines ns = .ok L ∧ W = L.map fun s => s.map fun p => ((p.1 : ℚ) : K)
  | [], G, W, h1, h2 => by
      simp only [readGroups, Except.ok.injEq] at h1
      subst h1
      simp only [readWaves, Except.ok.injEq] at h2
      subst h2
      exact ⟨[], rfl, rfl⟩
  | n :: ns, G, W, h1, h2 => by
      unfold readGroups at h1
      cases hn : readLineNames (some n) with
      | error e => rw [hn] at h1; exact absurd h1 (by simp)
      | ok l =>
        rw [hn] at h1
        simp only at h1
        cases hg : readGroups ns with
        | error e => rw [hg] at h1; exact absurd h1 (by simp)
        | ok ls =>
          rw [hg] at h1
          simp only [Except.ok.injEq] at h1
          subst h1
          unfold readWaves at h2
          cases hw : readAll readRestwave l with
          | error e => rw [hw] at h2; exact absurd h2 (by simp)
          | ok ws =>
            rw [hw] at h2
            simp only at h2
            cases hws : readWaves (K := K) ls with
            | error e => rw [hws] at h2; exact absurd h2 (by simp)
            | ok wss =>
              rw [hws] at h2
              simp only [Except.ok.injEq] at h2
              subst h2
              obtain ⟨rs, hrs, hlen⟩ := readAll_both l ws hw
              obtain ⟨L, hL, hW⟩ := groups_waves ns ls wss hg hws
              refine ⟨ws.zip rs :: L, ?_, ?_⟩
              · unfold modelLines groupLines
                rw [hn]
                simp only [hw, hrs, hL]
              · rw [List.map_cons, ← hW]
                congr 1
                have : ws = (ws.zip rs).map Prod.fst := (List.map_fst_zip (by omega)).symm
                conv_lhs => rw [this]
                rw [List.map_map]
                rfl

/-- What a successful `setAttr` leaves. -/
theorem setAttr_ok {strict : Bool} {g : Gal1D K} {kw : F1Kw K} {o o' : F1 K}
    (h : F1.setAttr strict g kw o = (o', none)) :
    ∃ l W, o' = { o.update kw with
        z := g.z.map PyNum.val, linenames := some l, restwave := some W } ∧
      (∀ x, (o.update kw).linenames = some x → l = x) ∧
      (∀ x, (o.update kw).restwave = some x → W = x) ∧
      ((o.update kw).linenames = none → ∃ ns, (o.update kw).names = some ns ∧
        readGroups ns = .ok l) ∧
      ((o.update kw).restwave = none → readWaves l = .ok W ∧ (strict && ragged W) = false) := by
  unfold F1.setAttr at h
  simp only at h
  split at h
  · exact absurd (congrArg Prod.snd h) (by simp)
  · generalize o.update kw = u at h ⊢
    cases hg : F1.groupNames { u with z := g.z.map PyNum.val } with
    | error e => rw [hg] at h; exact absurd (congrArg Prod.snd h) (by simp)
    | ok l =>
      rw [hg] at h
      simp only at h
      unfold F1.groupNames at hg
      simp only at hg
      have hl : (∀ x, u.linenames = some x → l = x) ∧
          (u.linenames = none → ∃ ns, u.names = some ns ∧ readGroups ns = .ok l) := by
        cases hu : u.linenames with
        | some x =>
          rw [hu] at hg
          exact ⟨fun y hy => by rw [← Except.ok.inj hg, Option.some.inj hy], by simp⟩
        | none =>
          rw [hu] at hg
          simp only at hg
          cases hn : u.names with
          | none => rw [hn] at hg; exact absurd hg (by simp)
          | some ns => rw [hn] at hg; exact ⟨by simp, fun _ => ⟨ns, rfl, hg⟩⟩
      unfold F1.setWaves at h
      simp only at h
      cases hr : u.restwave with
      | some W =>
        rw [hr] at h
        refine ⟨l, W, ?_, hl.1, by simp, hl.2, by simp⟩
        exact (congrArg Prod.fst h).symm
      | none =>
        rw [hr] at h
        simp only at h
        cases hw : readWaves (K := K) l with
        | error e => rw [hw] at h; exact absurd (congrArg Prod.snd h) (by simp)
        | ok W =>
          rw [hw] at h
          simp only at h
          split at h
          · exact absurd (congrArg Prod.snd h) (by simp)
          · rename_i hrag
            exact ⟨l, W, (congrArg Prod.fst h).symm, hl.1, by simp, hl.2,
              fun _ => ⟨hw, by simpa using hrag⟩⟩

/-- What a successful constructor leaves. -/
theorem make_ok {strict : Bool} {g g' : Gal1D K} {kw : F1Kw K} {o : F1 K}
    (h : F1.make strict g kw = (o, g', none)) :
    F1.setAttr strict g kw { velDisp := 0, delLam := 20 } = (o, none) ∧
      o.setupSpectrum g = (g', none) := by
  unfold F1.make at h
  cases hs : F1.setAttr strict g kw { velDisp := 0, delLam := 20 } with
  | mk o1 e =>
    rw [hs] at h
    cases e with
    | some e => simp only [Prod.mk.injEq] at h; exact absurd h.2.2 (by simp)
    | none =>
      simp only [Prod.mk.injEq] at h
      obtain ⟨rfl, h2, h3⟩ := h
      exact ⟨rfl, Prod.ext h2 h3⟩

/-- **C134** (partial): for an object made from group names alone, the wavelengths it records are
those of the lines it fits, set by set.
Missing from the full claim: lines given by the user, see `C134_false`. -/
theorem C134_catalogue_partial (strict : Bool) (g g' : Gal1D K) (kw : F1Kw K) (o : F1 K)
    (h : F1.make strict g kw = (o, g', none)) (h1 : kw.linenames = none) (h2 : kw.restwave = none)
    (ns : List String) (hn : kw.names = some ns) :
    ∃ L, modelLines ns = .ok L ∧
      o.restwave = some (L.map fun s => s.map fun p => ((p.1 : ℚ) : K)) := by
  obtain ⟨hs, -⟩ := make_ok h
  obtain ⟨l, W, rfl, -, -, hl, hw⟩ := setAttr_ok hs
  have e1 : (F1.update ({ velDisp := 0, delLam := 20 } : F1 K) kw).linenames = none := by
    simp [F1.update, h1]
  have e2 : (F1.update ({ velDisp := 0, delLam := 20 } : F1 K) kw).restwave = none := by
    simp [F1.update, h2]
  have e3 : (F1.update ({ velDisp := 0, delLam := 20 } : F1 K) kw).names = some ns := by
    simp [F1.update, hn]
  obtain ⟨ns', hns', hg⟩ := hl e1
  rw [e3] at hns'
  obtain rfl := Option.some.inj hns'
  obtain ⟨L, hL, hW⟩ := groups_waves ns l W hg (hw e2).1
  exact ⟨L, hL, by rw [← hW]⟩

/-! ## C135: two objects on one galaxy -/

/-- The trimmed spectrum of a galaxy is only read by `fit`; constructing an object replaces it,
whatever it was, and changes nothing else in the galaxy. -/
theorem setupSpectrum_trim (o : F1 K) (g : Gal1D K) (x : Option (Spec1D K (Fl K))) (g' : Gal1D K)
    (h : o.setupSpectrum g = (g', none)) :
    o.setupSpectrum { g with trim := x } = (g', none) ∧ g' = { g with trim := g'.trim } := by
  unfold F1.setupSpectrum at h ⊢
  cases hs : g.spec with
  | none => rw [hs] at h; exact absurd (congrArg Prod.snd h) (by simp)
  | some s =>
    rw [hs] at h
    simp only at h ⊢
    cases hn : o.names with
    | none => rw [hn] at h; exact absurd (congrArg Prod.snd h) (by simp)
    | some ns =>
      rw [hn] at h
      cases ns with
      | nil => exact absurd (congrArg Prod.snd h) (by simp)
      | cons n ns =>
        simp only at h ⊢
        cases ht : trimSpectrum1D (some s) g.z o.trimRest none (o.lookup n) with
        | error e => rw [ht] at h; exact absurd (congrArg Prod.snd h) (by simp)
        | ok t =>
          rw [ht] at h
          cases t with
          | none => exact absurd (congrArg Prod.snd h) (by simp)
          | some t =>
            simp only at h ⊢
            have h' := congrArg Prod.fst h
            simp only at h'
            rw [← h']
            exact ⟨rfl, rfl⟩

/-- **C135** (what the second object does): after a second fit object has been made on the same
galaxy, every fit of the first one runs on the spectrum trimmed for the second: it is what the
first would do on a galaxy on which only the second was made. -/
theorem C135_overwritten [FloorRing K] (strict : Bool) (g gA gB : Gal1D K) (kwA kwB : F1Kw K)
    (A B : F1 K) (hA : F1.make strict g kwA = (A, gA, none))
    (hB : F1.make strict gA kwB = (B, gB, none)) (O : Lm1 K) (res : Option K) (c : Fit1DCall)
    (files : Files1 K) :
    F1.make strict g kwB = (B, gB, none) ∧
      F1.fit O res gB c A files = F1.fit O res { g with trim := gB.trim } c A files := by
  obtain ⟨hA1, hA2⟩ := make_ok hA
  obtain ⟨hB1, hB2⟩ := make_ok hB
  obtain ⟨-, hgA⟩ := setupSpectrum_trim A g none gA hA2
  obtain ⟨h1, hgB⟩ := setupSpectrum_trim B gA g.trim gB hB2
  have e1 : ({ gA with trim := g.trim } : Gal1D K) = g := by rw [hgA]
  rw [e1] at h1
  have e2 : gB = { g with trim := gB.trim } := by rw [hgB, hgA]
  constructor
  · unfold F1.make
    have : F1.setAttr strict g kwB { velDisp := 0, delLam := 20 } = (B, none) := by
      rw [← hB1, hgA]; rfl
    rw [this]
    simp only [h1]
  · rw [← e2]

/-- **C135** (partial): a second object with the same first group and the same trimming options
leaves the galaxy, and so every fit of the first object, as they were.
Missing from the full claim: other groups or options, see `C135_false`. -/
theorem C135_same_partial [FloorRing K] (strict : Bool) (g gA gB : Gal1D K) (kwA kwB : F1Kw K)
    (A B : F1 K) (hA : F1.make strict g kwA = (A, gA, none))
    (hB : F1.make strict gA kwB = (B, gB, none)) (hn : A.names.map List.head? = B.names.map List.head?)
    (hf : A.trimFile = B.trimFile) (hr : A.trimRest = B.trimRest) (O : Lm1 K) (res : Option K)
    (c : Fit1DCall) (files : Files1 K) :
    gB = gA ∧ F1.fit O res gB c A files = F1.fit O res gA c A files := by
  obtain ⟨hA1, hA2⟩ := make_ok hA
  obtain ⟨hB1, hB2⟩ := make_ok hB
  obtain ⟨hA3, hgA⟩ := setupSpectrum_trim A g gA.trim gA hA2
  rw [← hgA] at hA3
  have hset : A.setupSpectrum gA = B.setupSpectrum gA := by
    unfold F1.setupSpectrum F1.lookup
    rw [hf, hr]
    cases h1 : A.names with
    | none =>
      rw [h1] at hn
      cases h2 : B.names with
      | none => rfl
      | some ns => rw [h2] at hn; exact absurd hn (by simp)
    | some ns =>
      rw [h1] at hn
      cases h2 : B.names with
      | none => rw [h2] at hn; exact absurd hn (by simp)
      | some ns' =>
        rw [h2] at hn
        cases ns with
        | nil =>
          cases ns' with
          | nil => rfl
          | cons n ns' => exact absurd hn (by simp)
        | cons n ns =>
          cases ns' with
          | nil => exact absurd hn (by simp)
          | cons n' ns' =>
            simp only [Option.map_some, List.head?_cons, Option.some.injEq] at hn
            subst hn
            rfl
  rw [← hset, hA3] at hB2
  have : gB = gA := (congrArg Prod.fst hB2).symm
  exact ⟨this, by rw [this]⟩

/-! ## C136: changing options keeps results -/

/-- **C136**, negation: every `setAttr` call resets the redshift to the galaxy's, so a fitted
redshift is lost as soon as any option is changed. -/
theorem C136_false (strict : Bool) (g : Gal1D K) (zg : PyNum K) (hz : g.z = some zg) (kw : F1Kw K)
    (o : F1 K) : (F1.setAttr strict g kw o).1.z = some zg.val := by
  unfold F1.setAttr F1.setWaves
  simp only [hz]
  repeat' split
  all_goals rfl

/-- **C136** (partial): the other results - dispersion, fluxes, continuum coefficients and all
errors - are kept unless given.  Missing from the full claim: the redshift, see `C136_false`. -/
theorem C136_rest_partial (strict : Bool) (g : Gal1D K) (kw : F1Kw K) (o : F1 K)
    (h1 : kw.velDisp = none) (h2 : kw.flux = none) (h3 : kw.cont = none) :
    (F1.setAttr strict g kw o).1.velDisp = o.velDisp ∧
    (F1.setAttr strict g kw o).1.flux = o.flux ∧ (F1.setAttr strict g kw o).1.cont = o.cont ∧
    (F1.setAttr strict g kw o).1.zErr = o.zErr ∧ (F1.setAttr strict g kw o).1.velErr = o.velErr ∧
    (F1.setAttr strict g kw o).1.fluxErr = o.fluxErr ∧
    (F1.setAttr strict g kw o).1.contErr = o.contErr := by
  have hu : (o.update kw).velDisp = o.velDisp ∧ (o.update kw).flux = o.flux ∧
      (o.update kw).cont = o.cont := by
    unfold F1.update
    rw [h1, h2, h3]
    exact ⟨rfl, rfl, rfl⟩
  obtain ⟨e1, e2, e3⟩ := hu
  unfold F1.setAttr F1.setWaves
  simp only
  repeat' split
  all_goals exact ⟨e1, e2, e3, rfl, rfl, rfl, rfl⟩

/-- **C136**, exact condition: changing options that are not results keeps all results exactly if the fitted redshift is the
galaxy's. -/
theorem C136_exact (strict : Bool) (g : Gal1D K) (zg : PyNum K) (hz : g.z = some zg) (kw : F1Kw K) (o : F1 K)
    (h1 : kw.velDisp = none) (h2 : kw.flux = none) (h3 : kw.cont = none) :
    ((F1.setAttr strict g kw o).1.z = o.z ∧ (F1.setAttr strict g kw o).1.velDisp = o.velDisp ∧
      (F1.setAttr strict g kw o).1.flux = o.flux ∧ (F1.setAttr strict g kw o).1.cont = o.cont ∧
      (F1.setAttr strict g kw o).1.zErr = o.zErr ∧ (F1.setAttr strict g kw o).1.velErr = o.velErr ∧
      (F1.setAttr strict g kw o).1.fluxErr = o.fluxErr ∧ (F1.setAttr strict g kw o).1.contErr = o.contErr) ↔
    o.z = some zg.val := by
  rw [C136_false strict g zg hz kw o]
  exact ⟨fun h => h.1.symm, fun h => ⟨h.symm, C136_rest_partial strict g kw o h1 h2 h3⟩⟩

/-! ## C137: changed options take effect -/

/-- An object with another trimming range -/
def F1.withRange (o : F1 K) (r : Option (K × K)) : F1 K := { o with trimRest := r }

/-- **C137**, negation for the wavelength range: a range given to `setAttr` after construction has
no effect on any later fit (the spectrum is trimmed only by the constructor). -/
theorem C137_range_false [FloorRing K] (strict : Bool) (g : Gal1D K) (o : F1 K) (r : K × K)
    (O : Lm1 K) (res : Option K) (c : Fit1DCall) (files : Files1 K) :
    let a := (F1.setAttr strict g {} o).1
    let b := (F1.setAttr strict g { trimRest := some (some r) } o).1
    b = a.withRange (some r) ∧
    F1.fit O res g c b files = (((F1.fit O res g c a files).1.1.withRange (some r),
      (F1.fit O res g c a files).1.2), (F1.fit O res g c a files).2) := by
  intro a b
  have hab : b = a.withRange (some r) := by
    show (F1.setAttr strict g { trimRest := some (some r) } o).1 =
      (F1.setAttr strict g {} o).1.withRange (some r)
    unfold F1.setAttr F1.setWaves F1.groupNames F1.update
    simp only [Option.getD_none, Option.getD_some]
    cases o.linenames with
    | some l =>
      simp only
      split
      · rfl
      · cases o.restwave with
        | some W => rfl
        | none =>
          simp only
          cases readWaves (K := K) l with
          | error e => rfl
          | ok W => simp only; split <;> rfl
    | none =>
      cases o.names with
      | none => simp only; split <;> rfl
      | some ns =>
        simp only
        split
        · rfl
        · cases readGroups ns with
          | error e => rfl
          | ok l =>
            cases o.restwave with
            | some W => rfl
            | none =>
              simp only
              cases readWaves (K := K) l with
              | error e => rfl
              | ok W => simp only; split <;> rfl
  refine ⟨hab, ?_⟩
  rw [hab]
  clear_value a
  have hc : (a.withRange (some r)).initCont = a.initCont.withRange (some r) := by
    obtain ⟨_, _, _, _, ct, _, _, _, _, _, _, _, _, _, _, _, _⟩ := a
    cases ct <;> rfl
  have hst : ∀ s, (a.initCont.withRange (some r)).store s =
      (a.initCont.store s).withRange (some r) := by
    intro s
    unfold F1.store F1.withRange
    cases s.result <;> cases s.errors <;> rfl
  unfold F1.fit
  cases res with
  | none => rfl
  | some q =>
    simp only
    split
    · rfl
    · have hn : (a.withRange (some r)).names = a.names := rfl
      have ho : (a.withRange (some r)).contOrder = a.contOrder := rfl
      simp only [hc, hn, ho]
      cases g.z with
      | none => rfl
      | some zg =>
        cases a.names with
        | none => rfl
        | some ns =>
          simp only
          have : (a.initCont.withRange (some r)).start zg.val = a.initCont.start zg.val := rfl
          rw [this]
          split
          · rfl
          · split
            · rfl
            · split
              · rfl
              · unfold F1.fitRun
                simp only [hst]
                rfl

/-- **C137**, negation for the continuum: when the order of the continuum is raised after a fit, the
next fit raises IndexError (or an earlier exception) and changes nothing. -/
theorem C137_order_false [FloorRing K] (o : F1 K) (ct : List K) (hct : o.cont = some ct)
    (ho : ct.length < o.contOrder + 1) (O : Lm1 K) (res : Option K) (g : Gal1D K) (c : Fit1DCall)
    (files : Files1 K) :
    ∃ e, F1.fit O res g c o files = ((o, files), some e) := by
  have hi : o.initCont = o := by unfold F1.initCont; rw [hct]
  rcases fit_cases O res g c o files with ⟨o', e, h, h'⟩ | ⟨r, zg, ns, p, t, lines, -, -, -, -, hp,
    -, -, h⟩
  · rw [hi, or_self] at h'
    subst h'
    exact ⟨e, h⟩
  · exfalso
    rw [hi] at hp
    obtain ⟨-, -, -, ns, fl, ct', -, -, h3, -, -, h4, -⟩ := start_ok hp
    rw [hct] at h3
    rw [← Option.some.inj h3] at h4
    omega

/-- **C137** (partial): the number of Monte Carlo realisations given to `setAttr` is the number of
rows of every matrix written by the next fit; the width of the redshift window is the one in force
at the fit by `C131_redshift_window`.
Missing from the full claim: wavelength range and continuum order, see `C137_range_false` and
`C137_order_false`. -/
theorem C137_count_partial [FloorRing K] (strict : Bool) (g : Gal1D K) (o : F1 K) (n : Nat)
    (O : Lm1 K) (res : Option K) (c : Fit1DCall) (files : Files1 K) (k : String) :
    let a := (F1.setAttr strict g { numMC := some n } o).1
    (F1.fit O res g c a files).1.2 k = files k ∨
      ∃ m, (F1.fit O res g c a files).1.2 k = some m ∧ m.rows.length = n := by
  intro a
  have ha : a.numMC = n := by
    show (F1.setAttr strict g { numMC := some n } o).1.numMC = n
    unfold F1.setAttr F1.setWaves
    simp only
    repeat' split
    all_goals rfl
  clear_value a
  rcases fit_cases O res g c a files with ⟨o', e, h, -⟩ | ⟨r, zg, ns, p, t, lines, -, -, -, -, -,
    -, -, h⟩
  · rw [h]
    exact .inl rfl
  · rw [h]
    unfold F1.fitRun
    simp only
    split
    · rename_i f m hs hf hm
      by_cases hk : k = f
      · right
        refine ⟨m, if_pos hk, ?_⟩
        unfold F1.matrix at hm
        have hrl : c.reloadErrors = false := by
          have := ((Bool.and_eq_true _ _).mp hs).1
          unfold Fit1DCall.saves at this
          cases hc : c.reloadErrors
          · rfl
          · rw [hc] at this; simp at this
        rw [hrl] at hm
        simp only [Bool.false_eq_true, if_false, Except.ok.injEq] at hm
        subst hm
        simp only [mcMatrix, List.length_map, List.length_range, initCont_numMC, ha]
      · exact .inl (if_neg hk)
    · exact .inl rfl

end Use

/-- An object for Hα with a line at 7000 Å besides Hα -/
def mineKw : F1Kw ℚ where
  names := some ["Halpha"]
  flux := some [7]
  velDisp := some 80
  linenames := some (some [["HA6565", "mine"]])
  restwave := some (some [[6564.60, 7000]])

/-- It is made without exception; the model has only Hα. -/
example : (F1.make true toyGal mineKw).2.2 = none ∧
    modelLines ["Halpha"] = .ok [[(6564.60, 1)]] := by
  decide +kernel

/-- The hypotheses of `C134_catalogue_partial`: Hα and Hβ together. -/
example : (F1.make true toyGal
      { names := some ["Halpha", "Hbeta"], flux := some [7, 2], velDisp := some 80 }).2.2 = none ∧
    modelLines ["Halpha", "Hbeta"] = .ok [[(6564.60, 1)], [(4862.71, 1)]] := by
  decide +kernel

/-- **C135**, negation: an object for Hα is made and fitted; made in the same way on the same galaxy,
but fitted after an object for Hβ was made, it gets another dispersion: it is fitted to the
spectrum around Hβ. -/
theorem C135_false :
    (toyMake "Halpha").2.2 = none ∧
    (F1.make true (toyMake "Halpha").2.1
      { names := some ["Hbeta"], flux := some [7], velDisp := some 80 }).2.2 = none ∧
    (F1.fit (toyLm 2) (some 40) (toyMake "Halpha").2.1 { noPlot := true, noErrors := true }
      (toyMake "Halpha").1 fun _ => none).1.1.velDisp = 5 ∧
    (F1.fit (toyLm 2) (some 40) (F1.make true (toyMake "Halpha").2.1
        { names := some ["Hbeta"], flux := some [7], velDisp := some 80 }).2.1
      { noPlot := true, noErrors := true } (toyMake "Halpha").1 fun _ => none).1.1.velDisp = 3 := by
  decide +kernel

/-- The hypothesis of `C136_false` with a fitted redshift that differs from the galaxy's, and of
`C137_order_false` after a fit. -/
example :
    (F1.fit (toyLm 2) (some 40) (toyMake "Halpha").2.1 { noPlot := true, noErrors := true }
      (toyMake "Halpha").1 fun _ => none).1.1.z = some (2 + 20 / 6564.60) ∧
    toyGal.z.map PyNum.val = some 2 ∧
    (F1.fit (toyLm 2) (some 40) (toyMake "Halpha").2.1 { noPlot := true, noErrors := true }
      (toyMake "Halpha").1 fun _ => none).1.1.cont = some [0, 0] ∧
    ((F1.setAttr true toyGal { contOrder := some 2 }
      (F1.fit (toyLm 2) (some 40) (toyMake "Halpha").2.1 { noPlot := true, noErrors := true }
        (toyMake "Halpha").1 fun _ => none).1.1).1.contOrder) = 2 := by
  decide +kernel

end Misfit
