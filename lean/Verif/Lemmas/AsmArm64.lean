import Verif.Model.AsmArm
import Verif.Lemmas.AsmAmd64
import Verif.Lemmas.AsmCertArm503Mul
import Verif.Lemmas.AsmCertArm503Add
import Verif.Lemmas.AsmCertArm751Mul
import Verif.Lemmas.AsmCertArm751Add
/- The certificates of the arm64 routines put together. -/
namespace Lemmas.AsmArm64
open Model Model.Asm Model.Sidh Spec Spec.Asm Spec.Sidh Lemmas.Limb Lemmas.SidhGood Lemmas.AsmCall Lemmas.AsmFam Lemmas.AsmAmd64 Lemmas.AsmFamArm

theorem add503 {x y z : List W64} (lx : x.length = 12) (ly : y.length = 12) (lz : z.length = 12) :
    Gives Arm503.add [z, x, y] [0, 1, 2] 0 [] true (addP (primeOf .p503) (x.take 8) (y.take 8)) := by
  have h := add' (R := Arm503.add) (C := AsmCertArm503.C.add) (data := [z, x, y]) (x := x) (y := y) lit503 Lemmas.AsmCertArm503.add_ok
    (by simp only [List.map_cons, List.map_nil, lx, ly, lz]; rfl) rfl rfl (by omega) (by omega) rfl
  exact h

theorem add503_zx {x y : List W64} (lx : x.length = 12) (ly : y.length = 12) :
    Gives Arm503.add [x, y] [0, 0, 1] 0 [] true (addP (primeOf .p503) (x.take 8) (y.take 8)) := by
  have h := add' (R := Arm503.add) (C := AsmCertArm503.C.add_zx) (data := [x, y]) (x := x) (y := y) lit503 Lemmas.AsmCertArm503.add_zx_ok
    (by simp only [List.map_cons, List.map_nil, lx, ly]; rfl) rfl rfl (by omega) (by omega) rfl
  exact h

theorem add503_zy {x y : List W64} (lx : x.length = 12) (ly : y.length = 12) :
    Gives Arm503.add [y, x] [0, 1, 0] 0 [] true (addP (primeOf .p503) (x.take 8) (y.take 8)) := by
  have h := add' (R := Arm503.add) (C := AsmCertArm503.C.add_zy) (data := [y, x]) (x := x) (y := y) lit503 Lemmas.AsmCertArm503.add_zy_ok
    (by simp only [List.map_cons, List.map_nil, lx, ly]; rfl) rfl rfl (by omega) (by omega) rfl
  exact h

theorem add503_xy {x z : List W64} (lx : x.length = 12) (lz : z.length = 12) :
    Gives Arm503.add [z, x] [0, 1, 1] 0 [] true (addP (primeOf .p503) (x.take 8) (x.take 8)) := by
  have h := add' (R := Arm503.add) (C := AsmCertArm503.C.add_xy) (data := [z, x]) (x := x) (y := x) lit503 Lemmas.AsmCertArm503.add_xy_ok
    (by simp only [List.map_cons, List.map_nil, lx, lz]; rfl) rfl rfl (by omega) (by omega) rfl
  exact h

theorem add503_zxy {x : List W64} (lx : x.length = 12) :
    Gives Arm503.add [x] [0, 0, 0] 0 [] true (addP (primeOf .p503) (x.take 8) (x.take 8)) := by
  have h := add' (R := Arm503.add) (C := AsmCertArm503.C.add_zxy) (data := [x]) (x := x) (y := x) lit503 Lemmas.AsmCertArm503.add_zxy_ok
    (by simp only [List.map_cons, List.map_nil, lx]; rfl) rfl rfl (by omega) (by omega) rfl
  exact h

theorem add503_all (a : Alias) {z x y : List W64} (lz : z.length = 12) (lx : x.length = 12) (ly : y.length = 12) :
    Gives Arm503.add (a.data z x y) a.args 0 [] true (addP (primeOf .p503) (x.take 8) ((a.snd x y).take 8)) := by
  cases a
  · exact add503 lx ly lz
  · exact add503_zx lx ly
  · exact add503_zy lx ly
  · exact add503_xy lx lz
  · exact add503_zxy lx

theorem sub503 {x y z : List W64} (lx : x.length = 12) (ly : y.length = 12) (lz : z.length = 12) :
    Gives Arm503.sub [z, x, y] [0, 1, 2] 0 [] true (subP (primeOf .p503) (x.take 8) (y.take 8)) := by
  have h := sub' (R := Arm503.sub) (C := AsmCertArm503.C.sub) (data := [z, x, y]) (x := x) (y := y) lit503 (by decide +kernel) Lemmas.AsmCertArm503.sub_ok
    (by simp only [List.map_cons, List.map_nil, lx, ly, lz]; rfl) rfl rfl (by omega) (by omega) rfl
  exact h

theorem sub503_zx {x y : List W64} (lx : x.length = 12) (ly : y.length = 12) :
    Gives Arm503.sub [x, y] [0, 0, 1] 0 [] true (subP (primeOf .p503) (x.take 8) (y.take 8)) := by
  have h := sub' (R := Arm503.sub) (C := AsmCertArm503.C.sub_zx) (data := [x, y]) (x := x) (y := y) lit503 (by decide +kernel) Lemmas.AsmCertArm503.sub_zx_ok
    (by simp only [List.map_cons, List.map_nil, lx, ly]; rfl) rfl rfl (by omega) (by omega) rfl
  exact h

theorem sub503_zy {x y : List W64} (lx : x.length = 12) (ly : y.length = 12) :
    Gives Arm503.sub [y, x] [0, 1, 0] 0 [] true (subP (primeOf .p503) (x.take 8) (y.take 8)) := by
  have h := sub' (R := Arm503.sub) (C := AsmCertArm503.C.sub_zy) (data := [y, x]) (x := x) (y := y) lit503 (by decide +kernel) Lemmas.AsmCertArm503.sub_zy_ok
    (by simp only [List.map_cons, List.map_nil, lx, ly]; rfl) rfl rfl (by omega) (by omega) rfl
  exact h

theorem sub503_xy {x z : List W64} (lx : x.length = 12) (lz : z.length = 12) :
    Gives Arm503.sub [z, x] [0, 1, 1] 0 [] true (subP (primeOf .p503) (x.take 8) (x.take 8)) := by
  have h := sub' (R := Arm503.sub) (C := AsmCertArm503.C.sub_xy) (data := [z, x]) (x := x) (y := x) lit503 (by decide +kernel) Lemmas.AsmCertArm503.sub_xy_ok
    (by simp only [List.map_cons, List.map_nil, lx, lz]; rfl) rfl rfl (by omega) (by omega) rfl
  exact h

theorem sub503_zxy {x : List W64} (lx : x.length = 12) :
    Gives Arm503.sub [x] [0, 0, 0] 0 [] true (subP (primeOf .p503) (x.take 8) (x.take 8)) := by
  have h := sub' (R := Arm503.sub) (C := AsmCertArm503.C.sub_zxy) (data := [x]) (x := x) (y := x) lit503 (by decide +kernel) Lemmas.AsmCertArm503.sub_zxy_ok
    (by simp only [List.map_cons, List.map_nil, lx]; rfl) rfl rfl (by omega) (by omega) rfl
  exact h

theorem sub503_all (a : Alias) {z x y : List W64} (lz : z.length = 12) (lx : x.length = 12) (ly : y.length = 12) :
    Gives Arm503.sub (a.data z x y) a.args 0 [] true (subP (primeOf .p503) (x.take 8) ((a.snd x y).take 8)) := by
  cases a
  · exact sub503 lx ly lz
  · exact sub503_zx lx ly
  · exact sub503_zy lx ly
  · exact sub503_xy lx lz
  · exact sub503_zxy lx

theorem adl503 {x y z : List W64} (lx : x.length = 24) (ly : y.length = 24) (lz : z.length = 24) :
    Gives Arm503.adl [z, x, y] [0, 1, 2] 0 [] true (adlP (x.take 16) (y.take 16)) := by
  have h := adl_ok (R := Arm503.adl) (C := AsmCertArm503.C.adl) (data := [z, x, y]) (x := x) (y := y) Lemmas.AsmCertArm503.adl_ok
    (by simp only [List.map_cons, List.map_nil, lx, ly, lz]; rfl) rfl rfl (by omega) (by omega) rfl
  exact h

theorem adl503_zx {x y : List W64} (lx : x.length = 24) (ly : y.length = 24) :
    Gives Arm503.adl [x, y] [0, 0, 1] 0 [] true (adlP (x.take 16) (y.take 16)) := by
  have h := adl_ok (R := Arm503.adl) (C := AsmCertArm503.C.adl_zx) (data := [x, y]) (x := x) (y := y) Lemmas.AsmCertArm503.adl_zx_ok
    (by simp only [List.map_cons, List.map_nil, lx, ly]; rfl) rfl rfl (by omega) (by omega) rfl
  exact h

theorem adl503_zy {x y : List W64} (lx : x.length = 24) (ly : y.length = 24) :
    Gives Arm503.adl [y, x] [0, 1, 0] 0 [] true (adlP (x.take 16) (y.take 16)) := by
  have h := adl_ok (R := Arm503.adl) (C := AsmCertArm503.C.adl_zy) (data := [y, x]) (x := x) (y := y) Lemmas.AsmCertArm503.adl_zy_ok
    (by simp only [List.map_cons, List.map_nil, lx, ly]; rfl) rfl rfl (by omega) (by omega) rfl
  exact h

theorem adl503_xy {x z : List W64} (lx : x.length = 24) (lz : z.length = 24) :
    Gives Arm503.adl [z, x] [0, 1, 1] 0 [] true (adlP (x.take 16) (x.take 16)) := by
  have h := adl_ok (R := Arm503.adl) (C := AsmCertArm503.C.adl_xy) (data := [z, x]) (x := x) (y := x) Lemmas.AsmCertArm503.adl_xy_ok
    (by simp only [List.map_cons, List.map_nil, lx, lz]; rfl) rfl rfl (by omega) (by omega) rfl
  exact h

theorem adl503_zxy {x : List W64} (lx : x.length = 24) :
    Gives Arm503.adl [x] [0, 0, 0] 0 [] true (adlP (x.take 16) (x.take 16)) := by
  have h := adl_ok (R := Arm503.adl) (C := AsmCertArm503.C.adl_zxy) (data := [x]) (x := x) (y := x) Lemmas.AsmCertArm503.adl_zxy_ok
    (by simp only [List.map_cons, List.map_nil, lx]; rfl) rfl rfl (by omega) (by omega) rfl
  exact h

theorem adl503_all (a : Alias) {z x y : List W64} (lz : z.length = 24) (lx : x.length = 24) (ly : y.length = 24) :
    Gives Arm503.adl (a.data z x y) a.args 0 [] true (adlP (x.take 16) ((a.snd x y).take 16)) := by
  cases a
  · exact adl503 lx ly lz
  · exact adl503_zx lx ly
  · exact adl503_zy lx ly
  · exact adl503_xy lx lz
  · exact adl503_zxy lx

theorem sul503 {x y z : List W64} (lx : x.length = 24) (ly : y.length = 24) (lz : z.length = 24) :
    Gives Arm503.sul [z, x, y] [0, 1, 2] 0 [] true (sulP (primeOf .p503) (x.take 16) (y.take 16)) := by
  have h := sul' (R := Arm503.sul) (C := AsmCertArm503.C.sul) (data := [z, x, y]) (x := x) (y := y) lit503 rfl (by decide +kernel) Lemmas.AsmCertArm503.sul_ok
    (by simp only [List.map_cons, List.map_nil, lx, ly, lz]; rfl) rfl rfl (by omega) (by omega) rfl
  exact h

theorem sul503_zx {x y : List W64} (lx : x.length = 24) (ly : y.length = 24) :
    Gives Arm503.sul [x, y] [0, 0, 1] 0 [] true (sulP (primeOf .p503) (x.take 16) (y.take 16)) := by
  have h := sul' (R := Arm503.sul) (C := AsmCertArm503.C.sul_zx) (data := [x, y]) (x := x) (y := y) lit503 rfl (by decide +kernel) Lemmas.AsmCertArm503.sul_zx_ok
    (by simp only [List.map_cons, List.map_nil, lx, ly]; rfl) rfl rfl (by omega) (by omega) rfl
  exact h

theorem sul503_zy {x y : List W64} (lx : x.length = 24) (ly : y.length = 24) :
    Gives Arm503.sul [y, x] [0, 1, 0] 0 [] true (sulP (primeOf .p503) (x.take 16) (y.take 16)) := by
  have h := sul' (R := Arm503.sul) (C := AsmCertArm503.C.sul_zy) (data := [y, x]) (x := x) (y := y) lit503 rfl (by decide +kernel) Lemmas.AsmCertArm503.sul_zy_ok
    (by simp only [List.map_cons, List.map_nil, lx, ly]; rfl) rfl rfl (by omega) (by omega) rfl
  exact h

theorem sul503_xy {x z : List W64} (lx : x.length = 24) (lz : z.length = 24) :
    Gives Arm503.sul [z, x] [0, 1, 1] 0 [] true (sulP (primeOf .p503) (x.take 16) (x.take 16)) := by
  have h := sul' (R := Arm503.sul) (C := AsmCertArm503.C.sul_xy) (data := [z, x]) (x := x) (y := x) lit503 rfl (by decide +kernel) Lemmas.AsmCertArm503.sul_xy_ok
    (by simp only [List.map_cons, List.map_nil, lx, lz]; rfl) rfl rfl (by omega) (by omega) rfl
  exact h

theorem sul503_zxy {x : List W64} (lx : x.length = 24) :
    Gives Arm503.sul [x] [0, 0, 0] 0 [] true (sulP (primeOf .p503) (x.take 16) (x.take 16)) := by
  have h := sul' (R := Arm503.sul) (C := AsmCertArm503.C.sul_zxy) (data := [x]) (x := x) (y := x) lit503 rfl (by decide +kernel) Lemmas.AsmCertArm503.sul_zxy_ok
    (by simp only [List.map_cons, List.map_nil, lx]; rfl) rfl rfl (by omega) (by omega) rfl
  exact h

theorem sul503_all (a : Alias) {z x y : List W64} (lz : z.length = 24) (lx : x.length = 24) (ly : y.length = 24) :
    Gives Arm503.sul (a.data z x y) a.args 0 [] true (sulP (primeOf .p503) (x.take 16) ((a.snd x y).take 16)) := by
  cases a
  · exact sul503 lx ly lz
  · exact sul503_zx lx ly
  · exact sul503_zy lx ly
  · exact sul503_xy lx lz
  · exact sul503_zxy lx

theorem mod503 {x : List W64} (lx : x.length = 12) :
    Gives Arm503.mod [x] [0] 0 [] true (modP (primeOf .p503) (x.take 8)) := by
  have h := mod' (R := Arm503.mod) (C := AsmCertArm503.C.mod) (data := [x]) (x := x) lit503 Lemmas.AsmCertArm503.mod_ok
    (by simp only [List.map_cons, List.map_nil, lx]; rfl) rfl (by omega) rfl
  exact h

theorem rdc503 {x z : List W64} (lx : x.length = 24) (lz : z.length = 12) :
    Gives Arm503.rdc [z, x] [0, 1] 0 [] false (rdcP (primeOf .p503) (x.take 16)) := by
  have h := rdc' (R := Arm503.rdc) (C := AsmCertArm503.C.rdc) (data := [z, x]) (x := x) lit503 rfl Lemmas.AsmCertArm503.rdc_ok
    (by simp only [List.map_cons, List.map_nil, lx, lz]; rfl) rfl (by omega) rfl
  exact h

theorem add751 {x y z : List W64} (lx : x.length = 12) (ly : y.length = 12) (lz : z.length = 12) :
    Gives Arm751.add [z, x, y] [0, 1, 2] 0 [] true (addP (primeOf .p751) (x.take 12) (y.take 12)) := by
  have h := add' (R := Arm751.add) (C := AsmCertArm751.C.add) (data := [z, x, y]) (x := x) (y := y) lit751 Lemmas.AsmCertArm751.add_ok
    (by simp only [List.map_cons, List.map_nil, lx, ly, lz]; rfl) rfl rfl (by omega) (by omega) rfl
  exact h

theorem add751_zx {x y : List W64} (lx : x.length = 12) (ly : y.length = 12) :
    Gives Arm751.add [x, y] [0, 0, 1] 0 [] true (addP (primeOf .p751) (x.take 12) (y.take 12)) := by
  have h := add' (R := Arm751.add) (C := AsmCertArm751.C.add_zx) (data := [x, y]) (x := x) (y := y) lit751 Lemmas.AsmCertArm751.add_zx_ok
    (by simp only [List.map_cons, List.map_nil, lx, ly]; rfl) rfl rfl (by omega) (by omega) rfl
  exact h

theorem add751_zy {x y : List W64} (lx : x.length = 12) (ly : y.length = 12) :
    Gives Arm751.add [y, x] [0, 1, 0] 0 [] true (addP (primeOf .p751) (x.take 12) (y.take 12)) := by
  have h := add' (R := Arm751.add) (C := AsmCertArm751.C.add_zy) (data := [y, x]) (x := x) (y := y) lit751 Lemmas.AsmCertArm751.add_zy_ok
    (by simp only [List.map_cons, List.map_nil, lx, ly]; rfl) rfl rfl (by omega) (by omega) rfl
  exact h

theorem add751_xy {x z : List W64} (lx : x.length = 12) (lz : z.length = 12) :
    Gives Arm751.add [z, x] [0, 1, 1] 0 [] true (addP (primeOf .p751) (x.take 12) (x.take 12)) := by
  have h := add' (R := Arm751.add) (C := AsmCertArm751.C.add_xy) (data := [z, x]) (x := x) (y := x) lit751 Lemmas.AsmCertArm751.add_xy_ok
    (by simp only [List.map_cons, List.map_nil, lx, lz]; rfl) rfl rfl (by omega) (by omega) rfl
  exact h

theorem add751_zxy {x : List W64} (lx : x.length = 12) :
    Gives Arm751.add [x] [0, 0, 0] 0 [] true (addP (primeOf .p751) (x.take 12) (x.take 12)) := by
  have h := add' (R := Arm751.add) (C := AsmCertArm751.C.add_zxy) (data := [x]) (x := x) (y := x) lit751 Lemmas.AsmCertArm751.add_zxy_ok
    (by simp only [List.map_cons, List.map_nil, lx]; rfl) rfl rfl (by omega) (by omega) rfl
  exact h

theorem add751_all (a : Alias) {z x y : List W64} (lz : z.length = 12) (lx : x.length = 12) (ly : y.length = 12) :
    Gives Arm751.add (a.data z x y) a.args 0 [] true (addP (primeOf .p751) (x.take 12) ((a.snd x y).take 12)) := by
  cases a
  · exact add751 lx ly lz
  · exact add751_zx lx ly
  · exact add751_zy lx ly
  · exact add751_xy lx lz
  · exact add751_zxy lx

theorem sub751 {x y z : List W64} (lx : x.length = 12) (ly : y.length = 12) (lz : z.length = 12) :
    Gives Arm751.sub [z, x, y] [0, 1, 2] 0 [] true (subP (primeOf .p751) (x.take 12) (y.take 12)) := by
  have h := sub' (R := Arm751.sub) (C := AsmCertArm751.C.sub) (data := [z, x, y]) (x := x) (y := y) lit751 (by decide +kernel) Lemmas.AsmCertArm751.sub_ok
    (by simp only [List.map_cons, List.map_nil, lx, ly, lz]; rfl) rfl rfl (by omega) (by omega) rfl
  exact h

theorem sub751_zx {x y : List W64} (lx : x.length = 12) (ly : y.length = 12) :
    Gives Arm751.sub [x, y] [0, 0, 1] 0 [] true (subP (primeOf .p751) (x.take 12) (y.take 12)) := by
  have h := sub' (R := Arm751.sub) (C := AsmCertArm751.C.sub_zx) (data := [x, y]) (x := x) (y := y) lit751 (by decide +kernel) Lemmas.AsmCertArm751.sub_zx_ok
    (by simp only [List.map_cons, List.map_nil, lx, ly]; rfl) rfl rfl (by omega) (by omega) rfl
  exact h

theorem sub751_zy {x y : List W64} (lx : x.length = 12) (ly : y.length = 12) :
    Gives Arm751.sub [y, x] [0, 1, 0] 0 [] true (subP (primeOf .p751) (x.take 12) (y.take 12)) := by
  have h := sub' (R := Arm751.sub) (C := AsmCertArm751.C.sub_zy) (data := [y, x]) (x := x) (y := y) lit751 (by decide +kernel) Lemmas.AsmCertArm751.sub_zy_ok
    (by simp only [List.map_cons, List.map_nil, lx, ly]; rfl) rfl rfl (by omega) (by omega) rfl
  exact h

theorem sub751_xy {x z : List W64} (lx : x.length = 12) (lz : z.length = 12) :
    Gives Arm751.sub [z, x] [0, 1, 1] 0 [] true (subP (primeOf .p751) (x.take 12) (x.take 12)) := by
  have h := sub' (R := Arm751.sub) (C := AsmCertArm751.C.sub_xy) (data := [z, x]) (x := x) (y := x) lit751 (by decide +kernel) Lemmas.AsmCertArm751.sub_xy_ok
    (by simp only [List.map_cons, List.map_nil, lx, lz]; rfl) rfl rfl (by omega) (by omega) rfl
  exact h

theorem sub751_zxy {x : List W64} (lx : x.length = 12) :
    Gives Arm751.sub [x] [0, 0, 0] 0 [] true (subP (primeOf .p751) (x.take 12) (x.take 12)) := by
  have h := sub' (R := Arm751.sub) (C := AsmCertArm751.C.sub_zxy) (data := [x]) (x := x) (y := x) lit751 (by decide +kernel) Lemmas.AsmCertArm751.sub_zxy_ok
    (by simp only [List.map_cons, List.map_nil, lx]; rfl) rfl rfl (by omega) (by omega) rfl
  exact h

theorem sub751_all (a : Alias) {z x y : List W64} (lz : z.length = 12) (lx : x.length = 12) (ly : y.length = 12) :
    Gives Arm751.sub (a.data z x y) a.args 0 [] true (subP (primeOf .p751) (x.take 12) ((a.snd x y).take 12)) := by
  cases a
  · exact sub751 lx ly lz
  · exact sub751_zx lx ly
  · exact sub751_zy lx ly
  · exact sub751_xy lx lz
  · exact sub751_zxy lx

theorem adl751 {x y z : List W64} (lx : x.length = 24) (ly : y.length = 24) (lz : z.length = 24) :
    Gives Arm751.adl [z, x, y] [0, 1, 2] 0 [] true (adlP (x.take 24) (y.take 24)) := by
  have h := adl_ok (R := Arm751.adl) (C := AsmCertArm751.C.adl) (data := [z, x, y]) (x := x) (y := y) Lemmas.AsmCertArm751.adl_ok
    (by simp only [List.map_cons, List.map_nil, lx, ly, lz]; rfl) rfl rfl (by omega) (by omega) rfl
  exact h

theorem adl751_zx {x y : List W64} (lx : x.length = 24) (ly : y.length = 24) :
    Gives Arm751.adl [x, y] [0, 0, 1] 0 [] true (adlP (x.take 24) (y.take 24)) := by
  have h := adl_ok (R := Arm751.adl) (C := AsmCertArm751.C.adl_zx) (data := [x, y]) (x := x) (y := y) Lemmas.AsmCertArm751.adl_zx_ok
    (by simp only [List.map_cons, List.map_nil, lx, ly]; rfl) rfl rfl (by omega) (by omega) rfl
  exact h

theorem adl751_zy {x y : List W64} (lx : x.length = 24) (ly : y.length = 24) :
    Gives Arm751.adl [y, x] [0, 1, 0] 0 [] true (adlP (x.take 24) (y.take 24)) := by
  have h := adl_ok (R := Arm751.adl) (C := AsmCertArm751.C.adl_zy) (data := [y, x]) (x := x) (y := y) Lemmas.AsmCertArm751.adl_zy_ok
    (by simp only [List.map_cons, List.map_nil, lx, ly]; rfl) rfl rfl (by omega) (by omega) rfl
  exact h

theorem adl751_xy {x z : List W64} (lx : x.length = 24) (lz : z.length = 24) :
    Gives Arm751.adl [z, x] [0, 1, 1] 0 [] true (adlP (x.take 24) (x.take 24)) := by
  have h := adl_ok (R := Arm751.adl) (C := AsmCertArm751.C.adl_xy) (data := [z, x]) (x := x) (y := x) Lemmas.AsmCertArm751.adl_xy_ok
    (by simp only [List.map_cons, List.map_nil, lx, lz]; rfl) rfl rfl (by omega) (by omega) rfl
  exact h

theorem adl751_zxy {x : List W64} (lx : x.length = 24) :
    Gives Arm751.adl [x] [0, 0, 0] 0 [] true (adlP (x.take 24) (x.take 24)) := by
  have h := adl_ok (R := Arm751.adl) (C := AsmCertArm751.C.adl_zxy) (data := [x]) (x := x) (y := x) Lemmas.AsmCertArm751.adl_zxy_ok
    (by simp only [List.map_cons, List.map_nil, lx]; rfl) rfl rfl (by omega) (by omega) rfl
  exact h

theorem adl751_all (a : Alias) {z x y : List W64} (lz : z.length = 24) (lx : x.length = 24) (ly : y.length = 24) :
    Gives Arm751.adl (a.data z x y) a.args 0 [] true (adlP (x.take 24) ((a.snd x y).take 24)) := by
  cases a
  · exact adl751 lx ly lz
  · exact adl751_zx lx ly
  · exact adl751_zy lx ly
  · exact adl751_xy lx lz
  · exact adl751_zxy lx

theorem sul751 {x y z : List W64} (lx : x.length = 24) (ly : y.length = 24) (lz : z.length = 24) :
    Gives Arm751.sul [z, x, y] [0, 1, 2] 0 [] true (sulP (primeOf .p751) (x.take 24) (y.take 24)) := by
  have h := sul' (R := Arm751.sul) (C := AsmCertArm751.C.sul) (data := [z, x, y]) (x := x) (y := y) lit751 rfl (by decide +kernel) Lemmas.AsmCertArm751.sul_ok
    (by simp only [List.map_cons, List.map_nil, lx, ly, lz]; rfl) rfl rfl (by omega) (by omega) rfl
  exact h

theorem sul751_zx {x y : List W64} (lx : x.length = 24) (ly : y.length = 24) :
    Gives Arm751.sul [x, y] [0, 0, 1] 0 [] true (sulP (primeOf .p751) (x.take 24) (y.take 24)) := by
  have h := sul' (R := Arm751.sul) (C := AsmCertArm751.C.sul_zx) (data := [x, y]) (x := x) (y := y) lit751 rfl (by decide +kernel) Lemmas.AsmCertArm751.sul_zx_ok
    (by simp only [List.map_cons, List.map_nil, lx, ly]; rfl) rfl rfl (by omega) (by omega) rfl
  exact h

theorem sul751_zy {x y : List W64} (lx : x.length = 24) (ly : y.length = 24) :
    Gives Arm751.sul [y, x] [0, 1, 0] 0 [] true (sulP (primeOf .p751) (x.take 24) (y.take 24)) := by
  have h := sul' (R := Arm751.sul) (C := AsmCertArm751.C.sul_zy) (data := [y, x]) (x := x) (y := y) lit751 rfl (by decide +kernel) Lemmas.AsmCertArm751.sul_zy_ok
    (by simp only [List.map_cons, List.map_nil, lx, ly]; rfl) rfl rfl (by omega) (by omega) rfl
  exact h

theorem sul751_xy {x z : List W64} (lx : x.length = 24) (lz : z.length = 24) :
    Gives Arm751.sul [z, x] [0, 1, 1] 0 [] true (sulP (primeOf .p751) (x.take 24) (x.take 24)) := by
  have h := sul' (R := Arm751.sul) (C := AsmCertArm751.C.sul_xy) (data := [z, x]) (x := x) (y := x) lit751 rfl (by decide +kernel) Lemmas.AsmCertArm751.sul_xy_ok
    (by simp only [List.map_cons, List.map_nil, lx, lz]; rfl) rfl rfl (by omega) (by omega) rfl
  exact h

theorem sul751_zxy {x : List W64} (lx : x.length = 24) :
    Gives Arm751.sul [x] [0, 0, 0] 0 [] true (sulP (primeOf .p751) (x.take 24) (x.take 24)) := by
  have h := sul' (R := Arm751.sul) (C := AsmCertArm751.C.sul_zxy) (data := [x]) (x := x) (y := x) lit751 rfl (by decide +kernel) Lemmas.AsmCertArm751.sul_zxy_ok
    (by simp only [List.map_cons, List.map_nil, lx]; rfl) rfl rfl (by omega) (by omega) rfl
  exact h

theorem sul751_all (a : Alias) {z x y : List W64} (lz : z.length = 24) (lx : x.length = 24) (ly : y.length = 24) :
    Gives Arm751.sul (a.data z x y) a.args 0 [] true (sulP (primeOf .p751) (x.take 24) ((a.snd x y).take 24)) := by
  cases a
  · exact sul751 lx ly lz
  · exact sul751_zx lx ly
  · exact sul751_zy lx ly
  · exact sul751_xy lx lz
  · exact sul751_zxy lx

theorem mod751 {x : List W64} (lx : x.length = 12) :
    Gives Arm751.mod [x] [0] 0 [] true (modP (primeOf .p751) (x.take 12)) := by
  have h := mod' (R := Arm751.mod) (C := AsmCertArm751.C.mod) (data := [x]) (x := x) lit751 Lemmas.AsmCertArm751.mod_ok
    (by simp only [List.map_cons, List.map_nil, lx]; rfl) rfl (by omega) rfl
  exact h

theorem rdc751 {x z : List W64} (lx : x.length = 24) (lz : z.length = 12) :
    Gives Arm751.rdc [z, x] [0, 1] 0 [] false (rdcP (primeOf .p751) (x.take 24)) := by
  have h := rdc' (R := Arm751.rdc) (C := AsmCertArm751.C.rdc) (data := [z, x]) (x := x) lit751 rfl Lemmas.AsmCertArm751.rdc_ok
    (by simp only [List.map_cons, List.map_nil, lx, lz]; rfl) rfl (by omega) rfl
  exact h

theorem mul751 {x y z : List W64} (lx : x.length = 12) (ly : y.length = 12) (lz : z.length = 24) :
    Gives Arm751.mul [z, x, y] [0, 1, 2] 0 [] false (mulW (primeOf .p751) (x.take 12) (y.take 12)) := by
  have h := mul' (R := Arm751.mul) (C := AsmCertArm751.C.mul) (data := [z, x, y]) (x := x) (y := y) lit751 Lemmas.AsmCertArm751.mul_ok
    (by simp only [List.map_cons, List.map_nil, lx, ly, lz]; rfl) rfl rfl (by omega) (by omega) (fun _ _ j h => absurd h (List.not_mem_nil))
  exact h

theorem mul751_xy {x z : List W64} (lx : x.length = 12) (lz : z.length = 24) :
    Gives Arm751.mul [z, x] [0, 1, 1] 0 [] false (mulW (primeOf .p751) (x.take 12) (x.take 12)) := by
  have h := mul' (R := Arm751.mul) (C := AsmCertArm751.C.mul_xy) (data := [z, x]) (x := x) (y := x) lit751 Lemmas.AsmCertArm751.mul_xy_ok
    (by simp only [List.map_cons, List.map_nil, lx, lz]; rfl) rfl rfl (by omega) (by omega) (fun _ _ j h => absurd h (List.not_mem_nil))
  exact h

theorem mul503 {x y z : List W64} (lx : x.length = 12) (ly : y.length = 12) (lz : z.length = 24) {res : List W64} (hr : res.length = 16)
    (hv : val res = (val (x.take 8) * val (y.take 8) +
      if late (val ((x.drop 4).take 4)) (val (x.take 4)) (val ((y.drop 4).take 4)) (val (y.take 4)) <
        val ((x.drop 4).take 4) * val ((y.drop 4).take 4) then 2 ^ 832 else 0) % 2 ^ 1024) :
    Gives Arm503.mul [z, x, y] [0, 1, 2] 0 [] false res := by
  have h := half_ok (R := Arm503.mul) (C := AsmCertArm503.C.mul) (data := [z, x, y]) (x := x) (y := y) Lemmas.AsmCertArm503.mul_ok
    (by simp only [List.map_cons, List.map_nil, lx, ly, lz]; rfl) rfl rfl (by omega) (by omega) rfl rfl rfl rfl rfl hr hv
  exact h

theorem mul503_xy {x z : List W64} (lx : x.length = 12) (lz : z.length = 24) {res : List W64} (hr : res.length = 16)
    (hv : val res = (val (x.take 8) * val (x.take 8) +
      if late (val ((x.drop 4).take 4)) (val (x.take 4)) (val ((x.drop 4).take 4)) (val (x.take 4)) <
        val ((x.drop 4).take 4) * val ((x.drop 4).take 4) then 2 ^ 832 else 0) % 2 ^ 1024) :
    Gives Arm503.mul [z, x] [0, 1, 1] 0 [] false res := by
  have h := half_ok (R := Arm503.mul) (C := AsmCertArm503.C.mul_xy) (data := [z, x]) (x := x) (y := x) Lemmas.AsmCertArm503.mul_xy_ok
    (by simp only [List.map_cons, List.map_nil, lx, lz]; rfl) rfl rfl (by omega) (by omega) rfl rfl rfl rfl rfl hr hv
  exact h

end Lemmas.AsmArm64
