import Verif.Model.LineObj
import Verif.Props.Lines

/-!
# C234: the wavelengths of a line model are those of its lines
-/

namespace Misfit

/-- Specification: wavelengths and ratios are, line by line, those in the row of the table for the line. -/
def LineObj.Matches (o : LineObj) : Prop :=
  ∃ rows : List (String × ℚ × ℚ), (∀ x ∈ rows, x ∈ lineWavelengths) ∧ o.lines.names = some (rows.map fun x => x.1) ∧
    o.lines.waves = some (rows.map fun x => x.2.1) ∧ o.lines.ratios = some (rows.map fun x => x.2.2)

theorem row_read : ∀ x ∈ lineWavelengths, readRestwave x.1 = .ok x.2.1 ∧ readLineRatio x.1 = .ok x.2.2 := by decide +kernel

theorem readRow_mem {α : Type} : ∀ (t : List (String × α)) (n : String) (v : α), readRow t (some n) = .ok v → (n, v) ∈ t
  | [], n, v, h => by cases h
  | (k, x) :: t, n, v, h => by
    unfold readRow at h
    split at h
    · rename_i hk
      cases h
      subst hk
      exact List.mem_cons_self
    · exact List.mem_cons_of_mem _ (readRow_mem t n v h)

theorem readAll_cons {f : String → Except PyErr ℚ} {n : String} {ns : List String} {w : List ℚ} (h : readAll f (n :: ns) = .ok w) :
    ∃ v vs, f n = .ok v ∧ readAll f ns = .ok vs ∧ w = v :: vs := by
  unfold readAll at h
  split at h
  · cases h
  · rename_i v hv
    split at h
    · cases h
    · rename_i vs hvs
      cases h
      exact ⟨v, vs, hv, hvs, rfl⟩

/-- what is read from the tables is a list of rows of the table -/
theorem readAll_rows : ∀ (ns : List String) (w r : List ℚ), readAll readRestwave ns = .ok w → readAll readLineRatio ns = .ok r →
    ∃ rows : List (String × ℚ × ℚ), (∀ x ∈ rows, x ∈ lineWavelengths) ∧ ns = rows.map (fun x => x.1) ∧
      w = rows.map (fun x => x.2.1) ∧ r = rows.map (fun x => x.2.2)
  | [], w, r, hw, hr => by
    cases hw
    cases hr
    exact ⟨[], by simp, rfl, rfl, rfl⟩
  | n :: ns, w, r, hw, hr => by
    obtain ⟨v, vs, h1, h2, rfl⟩ := readAll_cons hw
    obtain ⟨q, qs, h3, h4, rfl⟩ := readAll_cons hr
    obtain ⟨rows, hm, rfl, rfl, rfl⟩ := readAll_rows ns vs qs h2 h4
    have hrow : ∃ p, readRow lineWavelengths (some n) = .ok p := by
      unfold readRestwave at h1
      split at h1
      · exact ⟨_, by assumption⟩
      · cases h1
    obtain ⟨p, hp⟩ := hrow
    have hv : v = p.1 := by
      unfold readRestwave at h1
      rw [hp] at h1
      cases h1
      rfl
    have hq : q = p.2 := by
      unfold readLineRatio at h3
      rw [hp] at h3
      cases h3
      rfl
    refine ⟨(n, p) :: rows, ?_, rfl, by rw [hv]; rfl, by rw [hq]; rfl⟩
    intro x hx
    rcases List.mem_cons.1 hx with rfl | hx
    · exact readRow_mem _ _ _ hp
    · exact hm x hx

theorem rows_read : ∀ rows : List (String × ℚ × ℚ), (∀ x ∈ rows, x ∈ lineWavelengths) →
    readAll readRestwave (rows.map fun x => x.1) = .ok (rows.map fun x => x.2.1) ∧
    readAll readLineRatio (rows.map fun x => x.1) = .ok (rows.map fun x => x.2.2)
  | [], _ => ⟨rfl, rfl⟩
  | x :: rows, h => by
    have h1 := row_read x (h x List.mem_cons_self)
    have h2 := rows_read rows fun y hy => h y (List.mem_cons_of_mem _ hy)
    simp only [List.map_cons, readAll, h1.1, h1.2, h2.1, h2.2]
    exact ⟨trivial, trivial⟩

theorem matches_iff (o : LineObj) : o.Matches ↔ ∃ ns w r, o.lines = ⟨some ns, some w, some r⟩ ∧ readAll readRestwave ns = .ok w ∧
    readAll readLineRatio ns = .ok r := by
  constructor
  · rintro ⟨rows, hm, h1, h2, h3⟩
    refine ⟨_, _, _, ?_, (rows_read rows hm).1, (rows_read rows hm).2⟩
    obtain ⟨n, l⟩ := o
    obtain ⟨a, b, c⟩ := l
    simp only at h1 h2 h3
    rw [h1, h2, h3]
  · rintro ⟨ns, w, r, h, hw, hr⟩
    obtain ⟨rows, hm, rfl, rfl, rfl⟩ := readAll_rows ns w r hw hr
    exact ⟨rows, hm, by rw [h], by rw [h], by rw [h]⟩

theorem fill_ok {o o' : LineObj} {ns : List String} (hn : o.lines.names = some ns) (h : o.fill ns = (o', none)) :
    o'.name = o.name ∧ o'.lines.names = some ns ∧ ((o.lines.waves = none ∨ o.lines.ratios = none) → o'.Matches) ∧
    (∀ w r, o.lines.waves = some w → o.lines.ratios = some r → o' = o) := by
  unfold LineObj.fill at h
  split at h
  · rename_i w r hw hr
    cases h
    refine ⟨rfl, hn, fun h => ?_, fun _ _ _ _ => rfl⟩
    rcases h with h | h
    · rw [hw] at h; cases h
    · rw [hr] at h; cases h
  · rename_i hno
    split at h
    · cases h
    · rename_i w hw
      split at h
      · cases h
      · rename_i r hr
        cases h
        refine ⟨rfl, hn, fun _ => (matches_iff _).2 ⟨ns, w, r, by simp [hn], hw, hr⟩, fun w' r' hw' hr' => ?_⟩
        exact absurd hr' (hno w' r' hw')

/-- Specification: a call that leaves names, wavelengths and ratios alone, or makes the object read the tables again. -/
def LineKw.Fresh (kw : LineKw) : Prop :=
  (kw.names = none ∧ kw.waves = none ∧ kw.ratios = none) ∨ kw.waves = some none ∨ kw.ratios = some none

theorem set_fresh {o o' : LineObj} {kw : LineKw} (hk : kw.Fresh) (ho : o.Matches ∨ o.lines.waves = none ∨ o.lines.ratios = none)
    (h : o.set kw = (o', none)) : o'.Matches := by
  have hcase : (o.override kw).lines = o.lines ∨ (o.override kw).lines.waves = none ∨ (o.override kw).lines.ratios = none := by
    rcases hk with ⟨h1, h2, h3⟩ | h1 | h1
    · left
      unfold LineObj.override
      rw [h1, h2, h3]
      rfl
    · right; left
      unfold LineObj.override
      rw [h1]
      rfl
    · right; right
      unfold LineObj.override
      rw [h1]
      rfl
  have hcase' : (o.override kw).Matches ∨ (o.override kw).lines.waves = none ∨ (o.override kw).lines.ratios = none := by
    rcases hcase with h1 | h1
    · rcases ho with ⟨rows, hm, a, b, c⟩ | ho
      · exact Or.inl ⟨rows, hm, by rw [h1, a], by rw [h1, b], by rw [h1, c]⟩
      · rw [h1]; exact Or.inr ho
    · exact Or.inr h1
  unfold LineObj.set at h
  simp only at h
  split at h
  · rename_i ns hn
    have hf := fill_ok hn h
    rcases hcase' with hm | hm
    · obtain ⟨ns', w, r, hl, -, -⟩ := (matches_iff _).1 hm
      rw [hf.2.2.2 w r (by rw [hl]) (by rw [hl])]
      exact hm
    · exact hf.2.2.1 hm
  · rename_i hn
    split at h
    · cases h
    · rename_i ns hns
      have hf := fill_ok (o := { o.override kw with lines := { (o.override kw).lines with names := some ns } }) rfl h
      rcases hcase' with ⟨rows, -, hr, -, -⟩ | hm
      · rw [hr] at hn; cases hn
      · exact hf.2.2.1 hm

/-- after a call that raises, the tables have still to be read -/
theorem set_error {o o' : LineObj} {kw : LineKw} {e : PyErr} (h : o.set kw = (o', some e)) :
    o'.lines.waves = none ∨ o'.lines.ratios = none ∨ (o'.lines.names = none ∧ readLineNames o'.name = .error e) := by
  have hfill : ∀ (x x' : LineObj) ns, x.fill ns = (x', some e) → x'.lines.waves = none ∨ x'.lines.ratios = none := by
    intro x x' ns h
    unfold LineObj.fill at h
    split at h
    · cases h
    · rename_i hno
      have hx : x.lines.waves = none ∨ x.lines.ratios = none := by
        cases hw : x.lines.waves with
        | none => exact Or.inl rfl
        | some w =>
          cases hr : x.lines.ratios with
          | none => exact Or.inr rfl
          | some r => exact absurd hr (hno w r hw)
      split at h
      · cases h; exact hx
      · split at h
        · cases h; exact hx
        · cases h
  unfold LineObj.set at h
  simp only at h
  split at h
  · rcases hfill _ _ _ h with h | h
    · exact Or.inl h
    · exact Or.inr (Or.inl h)
  · rename_i hn
    split at h
    · rename_i e' he
      cases h
      exact Or.inr (Or.inr ⟨hn, he⟩)
    · rcases hfill _ _ _ h with h | h
      · exact Or.inl h
      · exact Or.inr (Or.inl h)

/-- **C234** (partial): an object made without wavelengths and ratios, and changed by any calls each of which leaves the three lists
alone or gives the wavelengths or the ratios as `None`, has after every call that succeeds the wavelengths and ratios of its lines.
Missing from the full claim: calls that give other lines or another name only, see `C234_false`. -/
theorem C234_partial (kw0 : LineKw) (hw0 : kw0.waves = none) (hr0 : kw0.ratios = none) (calls : List LineKw)
    (hcalls : ∀ kw ∈ calls, kw.Fresh) (kw : LineKw) (hk : kw.Fresh) :
    ((LineObj.new kw0).2 = none → (LineObj.new kw0).1.Matches) ∧
    ((((LineObj.new kw0).1.run calls).set kw).2 = none → (((LineObj.new kw0).1.run calls).set kw).1.Matches) := by
  have hne : ∀ (o : LineObj) (kw : LineKw), kw.Fresh → (o.Matches ∨ o.lines.waves = none ∨ o.lines.ratios = none) →
      ((o.set kw).1.Matches ∨ (o.set kw).1.lines.waves = none ∨ (o.set kw).1.lines.ratios = none) := by
    intro o kw hk ho
    cases h : o.set kw with
    | mk o' e =>
      cases e with
      | none => exact Or.inl (set_fresh hk ho h)
      | some e =>
        rcases set_error h with h1 | h1 | ⟨h1, h2⟩
        · exact Or.inr (Or.inl h1)
        · exact Or.inr (Or.inr h1)
        · have hov : o' = o.override kw := by
            unfold LineObj.set at h
            simp only at h
            split at h
            · rename_i ns hn
              unfold LineObj.fill at h
              split at h
              · cases h
              · split at h
                · cases h; rfl
                · split at h
                  · cases h; rfl
                  · cases h
            · split at h
              · cases h; rfl
              · unfold LineObj.fill at h
                split at h
                · cases h
                · split at h
                  · cases h; cases h1
                  · split at h
                    · cases h; cases h1
                    · cases h
          subst hov
          rcases hk with ⟨k1, k2, k3⟩ | k1 | k1
          · rcases ho with ⟨rows, -, a, -, -⟩ | ho
            · have : (o.override kw).lines.names = o.lines.names := by unfold LineObj.override; rw [k1]; rfl
              rw [this, a] at h1
              cases h1
            · right
              unfold LineObj.override
              rw [k2, k3]
              exact ho
          · right; left
            unfold LineObj.override
            rw [k1]; rfl
          · right; right
            unfold LineObj.override
            rw [k1]; rfl
  have hnew : LineObj.new kw0 = LineObj.set ⟨kw0.name.getD none, kw0.names.getD none, none, none⟩ {} := by
    unfold LineObj.new LineObj.set LineObj.override
    simp [hw0, hr0]
  have hfr : ({} : LineKw).Fresh := Or.inl ⟨rfl, rfl, rfl⟩
  have h0 : (LineObj.new kw0).1.Matches ∨ (LineObj.new kw0).1.lines.waves = none ∨ (LineObj.new kw0).1.lines.ratios = none := by
    rw [hnew]
    exact hne _ _ hfr (Or.inr (Or.inl rfl))
  have hrun : ∀ (calls : List LineKw) (o : LineObj), (∀ kw ∈ calls, kw.Fresh) →
      (o.Matches ∨ o.lines.waves = none ∨ o.lines.ratios = none) →
      ((o.run calls).Matches ∨ (o.run calls).lines.waves = none ∨ (o.run calls).lines.ratios = none) := by
    intro calls
    induction calls with
    | nil => exact fun _ _ h => h
    | cons k ks ih =>
      intro o hc ho
      exact ih (o.set k).1 (fun x hx => hc x (List.mem_cons_of_mem _ hx)) (hne o k (hc k List.mem_cons_self) ho)
  refine ⟨fun h => ?_, fun h => ?_⟩
  · rw [hnew] at h ⊢
    exact set_fresh (o := ⟨kw0.name.getD none, kw0.names.getD none, none, none⟩) hfr (Or.inr (Or.inl rfl)) (Prod.ext rfl h)
  · exact set_fresh hk (hrun calls _ hcalls h0) (Prod.ext rfl h)

/-- **C234**, exact condition: an object that has the values of its lines, and is given other line names and nothing else, keeps its
wavelengths and ratios; they are those of the new lines exactly if they are the same in the tables. -/
theorem C234_exact (o : LineObj) (ns0 ns : List String) (w r : List ℚ) (ho : o.lines = ⟨some ns0, some w, some r⟩) :
    o.set { names := some (some ns) } = ({ o with lines := ⟨some ns, some w, some r⟩ }, none) ∧
    ((o.set { names := some (some ns) }).1.Matches ↔ readAll readRestwave ns = .ok w ∧ readAll readLineRatio ns = .ok r) := by
  have h : o.set { names := some (some ns) } = ({ o with lines := ⟨some ns, some w, some r⟩ }, none) := by
    unfold LineObj.set LineObj.override LineObj.fill
    simp [ho]
  refine ⟨h, ?_⟩
  rw [h, matches_iff]
  constructor
  · rintro ⟨ns', w', r', he, h1, h2⟩
    cases he
    exact ⟨h1, h2⟩
  · rintro ⟨h1, h2⟩
    exact ⟨ns, w, r, rfl, h1, h2⟩

/-- **C234**: another group name changes the name and nothing else, as long as the object has lines. -/
theorem C234_name (o : LineObj) (ns : List String) (w r : List ℚ) (ho : o.lines = ⟨some ns, some w, some r⟩) (name : Option String) :
    o.set { name := some name } = ({ o with name := name }, none) := by
  unfold LineObj.set LineObj.override LineObj.fill
  simp [ho]

/-- **C234**, negation: a model of Hα that is given the name of Hβ is still a model of Hα, with all its values; one that is given the
lines of Hβ has the names of Hβ and the wavelength of Hα, and one given the [OIII] doublet has two names and one wavelength. -/
theorem C234_false :
    ((LineObj.new { name := some (some "Halpha") }).1.set { name := some (some "Hbeta") }).1 =
      ⟨some "Hbeta", some ["HA6565"], some [6564.60], some [1]⟩ ∧
    ((LineObj.new { name := some (some "Halpha") }).1.set { names := some (some ["HB4863"]) }).1.lines =
      ⟨some ["HB4863"], some [6564.60], some [1]⟩ ∧
    ((LineObj.new { name := some (some "Halpha") }).1.set { names := some (some ["OIII5008", "OIII4960"]) }).1.lines =
      ⟨some ["OIII5008", "OIII4960"], some [6564.60], some [1]⟩ := by
  refine ⟨?_, ?_, ?_⟩ <;> decide +kernel

/-- **C234**: after a call with a line that is not in the tables fails, the name stays in the object: every later call that gives
neither lines nor both lists fails again. -/
theorem C234_stuck (o : LineObj) (kw kw' : LineKw) (ns : List String) (hn : kw.names = some (some ns)) (hw : kw.waves = some none)
    (e : PyErr) (he : readAll readRestwave ns = .error e) (h' : kw'.names = none) (hw' : kw'.waves = none ∨ kw'.ratios = some none) :
    (o.set kw).2 = some e ∧ (((o.set kw).1).set kw').2 = some e := by
  have h1 : o.set kw = (o.override kw, some e) := by
    unfold LineObj.set
    simp only [LineObj.override, hn, hw, Option.getD_some, LineObj.fill, he]
  rw [h1]
  refine ⟨rfl, ?_⟩
  unfold LineObj.set
  simp only [LineObj.override, hn, hw, h', Option.getD_some, Option.getD_none, LineObj.fill]
  rcases hw' with hw' | hw'
  · simp only [hw', Option.getD_none, he]
  · simp only [hw', Option.getD_some]
    cases kw'.waves.getD none <;> simp only [he]

/-- calls that meet the hypotheses: the lines are changed and the tables are read again -/
example : LineKw.Fresh { names := some (some ["OIII5008", "OIII4960"]), waves := some none } ∧
    ((LineObj.new { name := some (some "Halpha") }).1.set { names := some (some ["OIII5008", "OIII4960"]), waves := some none }) =
      (⟨some "Halpha", some ["OIII5008", "OIII4960"], some [5008.24, 4960.295], some [1, 0.333333]⟩, none) ∧
    readAll readRestwave ["PaA"] = .error .valueError := by
  refine ⟨Or.inr (Or.inl rfl), ?_, ?_⟩ <;> decide +kernel

end Misfit
