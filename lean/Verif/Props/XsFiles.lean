import Verif.Props.XsText
/-
C88: the cross-section objects of the package.
-/

set_option autoImplicit false

namespace TNS
open Spec

theorem mass_D (m : Masses ℝ) : molarMass m "D".toList = .ok m.D := by
  rw [molarMass, if_pos rfl]

theorem mass_T (m : Masses ℝ) : molarMass m "T".toList = .ok m.T := by
  rw [molarMass, if_neg (by decide +kernel), if_pos rfl]

theorem mass_He3 (m : Masses ℝ) : molarMass m "He3".toList = .ok m.He3 := by
  rw [molarMass, if_neg (by decide +kernel), if_neg (by decide +kernel), if_neg (by decide +kernel), if_pos rfl]

theorem shipped_dt : shippedFiles "D_T_He_n.txt".toList = some (Data.dtText.map String.toList) := by
  rw [shippedFiles, if_pos rfl]

theorem shipped_ddn : shippedFiles "D_D_He3_n.txt".toList = some (Data.ddnText.map String.toList) := by
  rw [shippedFiles, if_neg (by decide +kernel), if_pos rfl]

theorem shipped_tt : shippedFiles "T_T_He_2n.txt".toList = some (Data.ttText.map String.toList) := by
  rw [shippedFiles, if_neg (by decide +kernel), if_neg (by decide +kernel), if_pos rfl]

theorem shipped_ddp : shippedFiles "D_D_T_p.txt".toList = some (Data.ddpText.map String.toList) := by
  rw [shippedFiles, if_neg (by decide +kernel), if_neg (by decide +kernel), if_neg (by decide +kernel), if_pos rfl]

theorem shipped_dhe3 : shippedFiles "D_He3_He_p.txt".toList = some (Data.dhe3Text.map String.toList) := by
  rw [shippedFiles, if_neg (by decide +kernel), if_neg (by decide +kernel), if_neg (by decide +kernel), if_neg (by decide +kernel), if_pos rfl]

theorem init_ddn (u : SI) (m : Masses ℝ) : XsObject.init u m shippedFiles "D_D_He3_n.txt".toList =
    .ok { name := "D + D -> He3 + n".toList, xs := .load u m.D m.D (genfromtxt Data.ddnRows) } := by
  have e : "D_D_He3_n.txt".toList = ("D".toList ++ '_' :: ("D".toList ++ '_' :: ("He3".toList ++ '_' ::
      ("n".toList ++ '.' :: "txt".toList)))) := by decide +kernel
  have en : "D + D -> He3 + n".toList = "D".toList ++ " + ".toList ++ "D".toList ++ " -> ".toList ++
      "He3".toList ++ " + ".toList ++ "n".toList := by decide +kernel
  have h := shipped_ddn
  rw [e] at h
  rw [e, en]
  exact C88_init u m shippedFiles _ _ _ _ _ (by decide +kernel) _ _ (mass_D m) (mass_D m) _ _ h ddn_text

theorem init_dt (u : SI) (m : Masses ℝ) : XsObject.init u m shippedFiles "D_T_He_n.txt".toList =
    .ok { name := "D + T -> He + n".toList, xs := .load u m.D m.T (genfromtxt Data.dtRows) } := by
  have e : "D_T_He_n.txt".toList = ("D".toList ++ '_' :: ("T".toList ++ '_' :: ("He".toList ++ '_' ::
      ("n".toList ++ '.' :: "txt".toList)))) := by decide +kernel
  have en : "D + T -> He + n".toList = "D".toList ++ " + ".toList ++ "T".toList ++ " -> ".toList ++
      "He".toList ++ " + ".toList ++ "n".toList := by decide +kernel
  have h := shipped_dt
  rw [e] at h
  rw [e, en]
  exact C88_init u m shippedFiles _ _ _ _ _ (by decide +kernel) _ _ (mass_D m) (mass_T m) _ _ h dt_text

theorem init_tt (u : SI) (m : Masses ℝ) : XsObject.init u m shippedFiles "T_T_He_2n.txt".toList =
    .ok { name := "T + T -> He + 2n".toList, xs := .load u m.T m.T (genfromtxt Data.ttRows) } := by
  have e : "T_T_He_2n.txt".toList = ("T".toList ++ '_' :: ("T".toList ++ '_' :: ("He".toList ++ '_' ::
      ("2n".toList ++ '.' :: "txt".toList)))) := by decide +kernel
  have en : "T + T -> He + 2n".toList = "T".toList ++ " + ".toList ++ "T".toList ++ " -> ".toList ++
      "He".toList ++ " + ".toList ++ "2n".toList := by decide +kernel
  have h := shipped_tt
  rw [e] at h
  rw [e, en]
  exact C88_init u m shippedFiles _ _ _ _ _ (by decide +kernel) _ _ (mass_T m) (mass_T m) _ _ h tt_text

theorem init_ddp (u : SI) (m : Masses ℝ) : XsObject.init u m shippedFiles "D_D_T_p.txt".toList =
    .ok { name := "D + D -> T + p".toList, xs := .load u m.D m.D (genfromtxt Data.ddpRows) } := by
  have e : "D_D_T_p.txt".toList = ("D".toList ++ '_' :: ("D".toList ++ '_' :: ("T".toList ++ '_' ::
      ("p".toList ++ '.' :: "txt".toList)))) := by decide +kernel
  have en : "D + D -> T + p".toList = "D".toList ++ " + ".toList ++ "D".toList ++ " -> ".toList ++
      "T".toList ++ " + ".toList ++ "p".toList := by decide +kernel
  have h := shipped_ddp
  rw [e] at h
  rw [e, en]
  exact C88_init u m shippedFiles _ _ _ _ _ (by decide +kernel) _ _ (mass_D m) (mass_D m) _ _ h ddp_text

theorem init_dhe3 (u : SI) (m : Masses ℝ) : XsObject.init u m shippedFiles "D_He3_He_p.txt".toList =
    .ok { name := "D + He3 -> He + p".toList, xs := .load u m.D m.He3 (genfromtxt Data.dhe3Rows) } := by
  have e : "D_He3_He_p.txt".toList = ("D".toList ++ '_' :: ("He3".toList ++ '_' :: ("He".toList ++ '_' ::
      ("p".toList ++ '.' :: "txt".toList)))) := by decide +kernel
  have en : "D + He3 -> He + p".toList = "D".toList ++ " + ".toList ++ "He3".toList ++ " -> ".toList ++
      "He".toList ++ " + ".toList ++ "p".toList := by decide +kernel
  have h := shipped_dhe3
  rw [e] at h
  rw [e, en]
  exact C88_init u m shippedFiles _ _ _ _ _ (by decide +kernel) _ _ (mass_D m) (mass_He3 m) _ _ h dhe3_text

/-- C88.  The cross section of every reaction is the one in the file of the package named after the reaction. -/
theorem C88_files (u : SI) (m : Masses ℝ) (r : Reaction) :
    XsObject.init u m shippedFiles r.xsFile = .ok
      { name := (match r with
          | .n .D_T => "D + T -> He + n"
          | .n .D_D => "D + D -> He3 + n"
          | .n .T_T => "T + T -> He + 2n"
          | .a .D_D => "D + D -> T + p"
          | .a .D_He3 => "D + He3 -> He + p" : String).toList
        xs := r.crossSection u m } := by
  match r with
  | .n .D_T => exact init_dt u m
  | .n .D_D => exact init_ddn u m
  | .n .T_T => exact init_tt u m
  | .a .D_D => exact init_ddp u m
  | .a .D_He3 => exact init_dhe3 u m

end TNS
