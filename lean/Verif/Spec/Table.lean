import Verif.Model.Table
/-! # Specification of well-formed tables -/

namespace Post.Spec
variable {F : Type} [Flt F]

/-- Each element is smaller than the next one. -/
def Ascending (l : List F) : Prop :=
  ∀ i, (h : i + 1 < l.length) → Flt.lt l[i] l[i + 1] = true

/-- The axis is ascending and has as many entries as the data has elements. -/
def AxisFits {T : Type} (axis : List F) (data : List T) : Prop :=
  Ascending axis ∧ data.length = axis.length

/-- A well-formed table: at every nesting level the axis is ascending and fits the data. -/
def WellFormed : Table F → Prop
  | .d1 t => AxisFits t.x.2 t.data
  | .d2 t => AxisFits t.x.2 t.data ∧ ∀ row ∈ t.data, AxisFits t.y.2 row
  | .d3 t => AxisFits t.x.2 t.data ∧
      ∀ plane ∈ t.data, AxisFits t.y.2 plane ∧ ∀ row ∈ plane, AxisFits t.z.2 row

end Post.Spec
