import Verif.Model.Objects

/-!
# A line model that is changed by `setAttr`

Source: `misfit/model/emission_lines_model.py` 160-245 (`EmissionLines1DModel`) and the shipped tables.
-/

namespace Misfit

/-- The attributes of `EmissionLines1DModel` (emission_lines_model.py 207-221) that concern its lines. -/
structure LineObj where
  name : Option String
  lines : LineSet
  deriving DecidableEq

/-- Keywords of `setAttr`; `none`: not given, `some none`: given as `None`. -/
structure LineKw where
  name : Option (Option String) := none
  names : Option (Option (List String)) := none
  waves : Option (Option (List ℚ)) := none
  ratios : Option (Option (List ℚ)) := none

/-- `self.__dict__.update(kwargs)` (emission_lines_model.py 225) -/
def LineObj.override (o : LineObj) (kw : LineKw) : LineObj :=
  ⟨kw.name.getD o.name, kw.names.getD o.lines.names, kw.waves.getD o.lines.waves, kw.ratios.getD o.lines.ratios⟩

/-- The second half of `setAttr` (emission_lines_model.py 233-245): both lists are read and then stored together.  The loop reads the
wavelength and the ratio of each line in turn; both look up the same row, so the exception is that of the first unknown line either way. -/
def LineObj.fill (o : LineObj) (ns : List String) : LineObj × Option PyErr :=
  match o.lines.waves, o.lines.ratios with
  | some _, some _ => (o, none)
  | _, _ =>
    match readAll readRestwave ns with
    | .error e => (o, some e)
    | .ok w =>
      match readAll readLineRatio ns with
      | .error e => (o, some e)
      | .ok r => ({ o with lines := { o.lines with waves := some w, ratios := some r } }, none)

/-- `setAttr(**kwargs)` (emission_lines_model.py 223-245); what was stored before an exception stays. -/
def LineObj.set (o : LineObj) (kw : LineKw) : LineObj × Option PyErr :=
  let o := o.override kw
  match o.lines.names with
  | some ns => o.fill ns
  | none =>
    match readLineNames o.name with
    | .error e => (o, some e)
    | .ok ns => LineObj.fill { o with lines := { o.lines with names := some ns } } ns

/-- `EmissionLines1DModel(**kwargs)` (emission_lines_model.py 207-221) -/
def LineObj.new (kw : LineKw) : LineObj × Option PyErr := LineObj.set ⟨none, none, none, none⟩ kw

/-- calls of `setAttr` one after another, exceptions caught by the caller -/
def LineObj.run (o : LineObj) (calls : List LineKw) : LineObj := calls.foldl (fun o kw => (o.set kw).1) o

end Misfit
