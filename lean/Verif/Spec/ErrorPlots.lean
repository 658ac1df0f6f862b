/-
Specification for C147: the file and the columns that belong to a curve.
-/
import Verif.Model.ErrorPlots

namespace Verif.ErrorPlots

/-- A figure of the scripts with what the drivers know about it -/
structure Subject where
  figure : Figure
  /-- names of all files of the drivers -/
  files : List String
  /-- the table of errors of a method and a value -/
  own : String → String → String
  /-- names of the columns that the driver of a method writes -/
  header : String → List String
  /-- the quantities that are added -/
  wanted : List String

/-- columns of the tables, from the numbers that the drivers put into them -/
def mixedHeader : List String := ["n_dof", "n_iter", "h"] ++ Rates.threeFields.errors
def cosseratHeader : List String := ["n_dof", "n_iter", "h"] ++ Rates.fourFields.errors
def volumeHeader : List String := ["n_dof", "h", "u", "r", "s", "Pu", "Pr"]
def volumeCosseratHeader : List String := ["n_dof", "h", "u", "r", "s", "m", "Pu", "Pr"]

/-- the drivers call the method with one field "FEM" -/
def driverMethod (m : String) : String := if m = "1_FEM" ∨ m = "2_FEM" then "FEM" else m

def cauchyHeader (m : String) : List String :=
  if m = "three_field_MFEM" then mixedHeader
  else if m = "TH_FEM" then ["n_dof", "n_iter", "h", "u", "p"]
  else ["n_dof", "n_iter", "h", "u"]

def ecmorHeader (m : String) : List String := if m = "three_field_MFEM" then mixedHeader else volumeHeader

def ecmorThreeHeader (m : String) : List String :=
  if m = "four_field_MFEM" then cosseratHeader else volumeCosseratHeader

/-- The figures that the scripts draw from the files of the drivers -/
def subjects : List Subject :=
  [⟨cauchyFigureOne, cauchyFilesOne, fun m v => "ex_1_" ++ driverMethod m ++ "_lambda_" ++ v ++ "_error.txt", cauchyHeader,
      ["u"]⟩,
    ⟨cauchyFigureTwo, cauchyFilesTwo, fun m v => "ex_2_" ++ driverMethod m ++ "_kappa_" ++ v ++ "_error.txt", cauchyHeader,
      ["u"]⟩] ++
  (ecmorFiguresOne.map fun f =>
    ⟨f, ecmorFiles "ex_1_" "_lambda_" ["1.0", "100.0", "10000.0", "100000000.0"],
      fun m v => "ex_1_" ++ m ++ "_lambda_" ++ v ++ "_error.txt", ecmorHeader, if f.kind = "u" then ["Pu"] else ["s"]⟩) ++
  (ecmorFiguresTwo.map fun f =>
    ⟨f, ecmorFiles "ex_2_" "_kappa_" ["0.0001", "1.0", "10000.0"],
      fun m v => "ex_2_" ++ m ++ "_kappa_" ++ v ++ "_error.txt", ecmorHeader, if f.kind = "u" then ["Pu"] else ["s"]⟩) ++
  (ecmorFiguresThree.map fun f =>
    ⟨f, ecmorFilesThree, fun m _ => "ex_3_" ++ m ++ "_error.txt", ecmorThreeHeader,
      if f.kind = "u" then ["Pu"] else ["s"]⟩) ++
  (cosseratFiguresThree.map fun f =>
    ⟨f, cosseratFilesThree, fun m k => m ++ "_k" ++ k ++ "_3d_error_ex_3.txt", fun _ => cosseratHeader,
      if f.kind = "normal" then ["u", "r", "s_h_div_norm", "o_h_div_norm"] else ["Pu"]⟩)

/-- A directory with the files of the drivers, each once and in any order, and others that are not tables of errors -/
def Subject.Filled {V : Type} (s : Subject) (dir : Dir V) : Prop :=
  ∃ others, (dir.map Prod.fst).Perm (s.files ++ others) ∧ ∀ n ∈ others, globbed s.figure.painter.ending n = false

/-- The entry of a row under a name -/
def under {V : Type} (header : List String) (row : List V) (name : String) : Option V := row[header.idxOf name]?

/-- The points of a curve: from every row the mesh size and the sum of the wanted quantities -/
def Shows {V : Type} [Zero V] [Add V] (header wanted : List String) (rows : List (List V)) (data : List (V × V)) : Prop :=
  List.Forall₂ (fun row pt => under header row "h" = some pt.1 ∧
    ∃ es, List.Forall₂ (fun name e => under header row name = some e) wanted es ∧ pt.2 = es.sum) rows data

end Verif.ErrorPlots
