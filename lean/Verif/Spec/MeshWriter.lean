/-
Specification for C117: what the files of a mesh contain.
-/
import Verif.Model.MeshWriter

namespace Verif.MeshWriter
open MeshBuild

/-- The cells of dimension `d` with a tag, in the order of the mesh. -/
def tagged (cs : List Cell) (d : Nat) : List Cell := cs.filter fun c => c.dimension = d ∧ c.material ≠ none

/-- The file of these cells: their nodes, their tags and their ids. -/
def goodFile (cs : List Cell) (d : Nat) : VtkFile :=
  ⟨d, (tagged cs d).map Cell.nodeTags, (tagged cs d).map Cell.material, (tagged cs d).map Cell.id, []⟩

/-- The files: one for each dimension with tagged cells. -/
def goodFiles (cs : List Cell) (dims : List Nat) : List VtkFile :=
  (dims.filter fun d => tagged cs d ≠ []).map (goodFile cs)

/-- All cells of one dimension have the same number of nodes. -/
def Simplices (cs : List Cell) : Prop := ∀ c ∈ cs, c.nodeTags.length = c.dimension + 1

/-- There are cells of dimension three with and without tags. -/
def MixedTags (cs : List Cell) : Prop :=
  (∃ c ∈ cs, c.dimension = 3 ∧ c.material ≠ none) ∧ ∃ c ∈ cs, c.dimension = 3 ∧ c.material = none

end Verif.MeshWriter
