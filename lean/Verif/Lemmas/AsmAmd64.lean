import Verif.Model.AsmAmd64
import Verif.Spec.Asm
import Verif.Lemmas.SidhGood
import Verif.Lemmas.AsmCert434Mul
import Verif.Lemmas.AsmCert434Add
import Verif.Lemmas.AsmCert503Mul
import Verif.Lemmas.AsmCert503Add
import Verif.Lemmas.AsmCert751Mul
import Verif.Lemmas.AsmCert751Add
/- The certificates of the three fields put together. -/
namespace Lemmas.AsmAmd64
open Model Model.Asm Model.Sidh Spec Spec.Asm Spec.Sidh Lemmas.Limb Lemmas.SidhGood Lemmas.AsmCall Lemmas.AsmFam

theorem writes_of {R : Routine} {data : List (List W64)} {args : List Nat} {zb : Nat} {scratch : List Nat} {k : Bool} {res : List W64}
    (h : Gives R data args zb scratch k res) : Writes R data args zb scratch res := by
  intro junk fr bp fp hf
  obtain ⟨data', bp', h1, h2, _⟩ := h junk fr bp fp hf
  refine ⟨data', bp', h1, h2.len, fun b d hd hb => ?_⟩
  by_cases hz : b = zb
  · subst hz
    rw [if_pos rfl]
    exact h2.out d hd
  · rw [if_neg hz]
    exact h2.keep b d hz hb hd

theorem keeps_of {R : Routine} {data : List (List W64)} {args : List Nat} {zb : Nat} {scratch : List Nat} {res : List W64}
    (h : Gives R data args zb scratch true res) : KeepsBP R data args := by
  intro junk fr bp fp hf
  obtain ⟨data', bp', h1, _, h3⟩ := h junk fr bp fp hf
  exact ⟨data', by rw [h1, h3 rfl]⟩

/-- Words of a field element and of a double-width number, with the modulus, as literals. -/
structure Lit (f : Fld) (n p : Nat) : Prop where
  hn : (primeOf f).n = n
  hp : val (primeOf f).p = p

theorem lit434 : Lit .p434 7 24439423661345221551909145011457493619085780243761596511325807336205221239331976725970216671828618445898719026692884939342314733567 := ⟨rfl, by decide +kernel⟩
theorem lit503 : Lit .p503 8 13175843156907117380839252916199345042492186767578363998445663477035843932020761233518914911546024351608607150390087656982982306331019593961154237431807 := ⟨rfl, by decide +kernel⟩
theorem lit751 : Lit .p751 12 10354717741769305252977768237866805321427389645549071170116189679054678940682478846502882896561066713624553211618840202385203911976522554393044160468771151816976706840078913334358399730952774926980235086850991501872665651576831 := ⟨rfl, by decide +kernel⟩

section
variable {f : Fld} {n p : Nat} {R : Routine} {C : Cert} {data : List (List W64)} {x y : List W64}

theorem coprimeP (f : Fld) : Nat.Coprime (2 ^ (64 * (primeOf f).n)) (val (primeOf f).p) := by
  rw [p_eq, R_eq]; exact coprime f

theorem add' (hL : Lit f n p) {xb yb sw dw b l0 l1 l2} (h : addChk R C n p xb yb sw dw b l0 l1 l2 = true) (hl : C.S.lens = data.map List.length)
    (hx : data[xb]? = some x) (hy : data[yb]? = some y) (lx : n ≤ x.length) (ly : n ≤ y.length) (ht : C.S.tops = []) :
    Gives R data (C.S.args.map argB) C.zb C.scratch C.keepBP (addP (primeOf f) (x.take n) (y.take n)) := by
  obtain ⟨rfl, rfl⟩ := hL
  exact add_ok (good f) h hl hx hy lx ly ht

theorem sub' (hL : Lit f n p) {m xb yb dw b l1 l2} (hm : m = 2 * p) (h : subChk R C n m xb yb dw b l1 l2 = true) (hl : C.S.lens = data.map List.length)
    (hx : data[xb]? = some x) (hy : data[yb]? = some y) (lx : n ≤ x.length) (ly : n ≤ y.length) (ht : C.S.tops = []) :
    Gives R data (C.S.args.map argB) C.zb C.scratch C.keepBP (subP (primeOf f) (x.take n) (y.take n)) := by
  subst hm
  obtain ⟨rfl, rfl⟩ := hL
  exact sub_ok (good f) h hl hx hy lx ly ht

theorem sul' (hL : Lit f n p) {m k xb yb dw b l1 l2} (hk : k = 2 * n) (hm : m = 2 ^ (64 * n) * p) (h : subChk R C k m xb yb dw b l1 l2 = true)
    (hl : C.S.lens = data.map List.length)
    (hx : data[xb]? = some x) (hy : data[yb]? = some y) (lx : k ≤ x.length) (ly : k ≤ y.length) (ht : C.S.tops = []) :
    Gives R data (C.S.args.map argB) C.zb C.scratch C.keepBP (sulP (primeOf f) (x.take k) (y.take k)) := by
  subst hm hk
  obtain ⟨rfl, rfl⟩ := hL
  exact sul_ok (good f) h hl hx hy lx ly ht

theorem mod' (hL : Lit f n p) {xb dw b l1 l2} (h : modChk R C n p xb dw b l1 l2 = true) (hl : C.S.lens = data.map List.length)
    (hx : data[xb]? = some x) (lx : n ≤ x.length) (ht : C.S.tops = []) :
    Gives R data (C.S.args.map argB) C.zb C.scratch C.keepBP (modP (primeOf f) (x.take n)) := by
  obtain ⟨rfl, rfl⟩ := hL
  exact mod_ok (good f) h hl hx lx ht

theorem rdc' (hL : Lit f n p) {k xb mp lam} (hk : k = 2 * n) (h : rdcChk R C n p xb mp lam = true) (hl : C.S.lens = data.map List.length)
    (hx : data[xb]? = some x) (lx : k ≤ x.length) (ht : C.S.tops = []) :
    Gives R data (C.S.args.map argB) C.zb C.scratch C.keepBP (rdcP (primeOf f) (x.take k)) := by
  subst hk
  obtain ⟨rfl, rfl⟩ := hL
  exact rdc_ok (good f) (coprimeP f) h hl hx lx ht

theorem tops2 {z x : List W64} (lz : z.length = 24) (lx : x.length = 12) {k : Nat} (tx : (x.getD k 0).toNat < 2 ^ 63) (hk : k < 12) :
    ∀ bp fp, ∀ j ∈ [24 + k], ((flat [z, x] bp fp []).getD j 0).toNat < 2 ^ 63 := by
  intro bp fp j hj
  have h1 := flat_block [z, x] bp fp [] 1 x k rfl (by omega)
  simp only [List.map_cons, List.map_nil, lz, lx] at h1
  rw [List.mem_singleton] at hj
  rw [hj]
  exact (congrArg BitVec.toNat h1).trans_lt tx

theorem tops3 {z x y : List W64} (lz : z.length = 24) (lx : x.length = 12) (ly : y.length = 12) {k : Nat} (tx : (x.getD k 0).toNat < 2 ^ 63)
    (ty : (y.getD k 0).toNat < 2 ^ 63) (hk : k < 12) :
    ∀ bp fp, ∀ j ∈ [24 + k, 36 + k], ((flat [z, x, y] bp fp []).getD j 0).toNat < 2 ^ 63 := by
  intro bp fp j hj
  have h1 := flat_block [z, x, y] bp fp [] 1 x k rfl (by omega)
  have h2 := flat_block [z, x, y] bp fp [] 2 y k rfl (by omega)
  simp only [List.map_cons, List.map_nil, lz, lx, ly] at h1 h2
  rw [List.mem_cons, List.mem_singleton] at hj
  rcases hj with rfl | rfl
  · exact (congrArg BitVec.toNat h1).trans_lt tx
  · exact (congrArg BitVec.toNat h2).trans_lt ty

theorem mul' (hL : Lit f n p) {xb yb lam} (h : mulChk R C n xb yb lam = true) (hl : C.S.lens = data.map List.length)
    (hx : data[xb]? = some x) (hy : data[yb]? = some y) (lx : n ≤ x.length) (ly : n ≤ y.length)
    (ht : ∀ bp fp, ∀ j ∈ C.S.tops, ((flat data bp fp []).getD j 0).toNat < 2 ^ 63) :
    Gives R data (C.S.args.map argB) C.zb C.scratch C.keepBP (mulW (primeOf f) (x.take n) (y.take n)) := by
  obtain ⟨rfl, rfl⟩ := hL
  exact mul_ok (good f) h hl hx hy lx ly ht

end

theorem add434 {x y z : List W64} (lx : x.length = 12) (ly : y.length = 12) (lz : z.length = 12) :
    Gives Asm434.add [z, x, y] [0, 1, 2] 0 [] true (addP (primeOf .p434) (x.take 7) (y.take 7)) := by
  have h := add' (R := Asm434.add) (C := AsmCert434.C.add) (data := [z, x, y]) (x := x) (y := y) lit434 Lemmas.AsmCert434.add_ok
    (by simp only [List.map_cons, List.map_nil, lx, ly, lz]; rfl) rfl rfl (by omega) (by omega) rfl
  exact h

theorem add434_zx {x y : List W64} (lx : x.length = 12) (ly : y.length = 12) :
    Gives Asm434.add [x, y] [0, 0, 1] 0 [] true (addP (primeOf .p434) (x.take 7) (y.take 7)) := by
  have h := add' (R := Asm434.add) (C := AsmCert434.C.add_zx) (data := [x, y]) (x := x) (y := y) lit434 Lemmas.AsmCert434.add_zx_ok
    (by simp only [List.map_cons, List.map_nil, lx, ly]; rfl) rfl rfl (by omega) (by omega) rfl
  exact h

theorem add434_zy {x y : List W64} (lx : x.length = 12) (ly : y.length = 12) :
    Gives Asm434.add [y, x] [0, 1, 0] 0 [] true (addP (primeOf .p434) (x.take 7) (y.take 7)) := by
  have h := add' (R := Asm434.add) (C := AsmCert434.C.add_zy) (data := [y, x]) (x := x) (y := y) lit434 Lemmas.AsmCert434.add_zy_ok
    (by simp only [List.map_cons, List.map_nil, lx, ly]; rfl) rfl rfl (by omega) (by omega) rfl
  exact h

theorem add434_xy {x z : List W64} (lx : x.length = 12) (lz : z.length = 12) :
    Gives Asm434.add [z, x] [0, 1, 1] 0 [] true (addP (primeOf .p434) (x.take 7) (x.take 7)) := by
  have h := add' (R := Asm434.add) (C := AsmCert434.C.add_xy) (data := [z, x]) (x := x) (y := x) lit434 Lemmas.AsmCert434.add_xy_ok
    (by simp only [List.map_cons, List.map_nil, lx, lz]; rfl) rfl rfl (by omega) (by omega) rfl
  exact h

theorem add434_zxy {x : List W64} (lx : x.length = 12) :
    Gives Asm434.add [x] [0, 0, 0] 0 [] true (addP (primeOf .p434) (x.take 7) (x.take 7)) := by
  have h := add' (R := Asm434.add) (C := AsmCert434.C.add_zxy) (data := [x]) (x := x) (y := x) lit434 Lemmas.AsmCert434.add_zxy_ok
    (by simp only [List.map_cons, List.map_nil, lx]; rfl) rfl rfl (by omega) (by omega) rfl
  exact h

theorem add434_all (a : Alias) {z x y : List W64} (lz : z.length = 12) (lx : x.length = 12) (ly : y.length = 12) :
    Gives Asm434.add (a.data z x y) a.args 0 [] true (addP (primeOf .p434) (x.take 7) ((a.snd x y).take 7)) := by
  cases a
  · exact add434 lx ly lz
  · exact add434_zx lx ly
  · exact add434_zy lx ly
  · exact add434_xy lx lz
  · exact add434_zxy lx

theorem sub434 {x y z : List W64} (lx : x.length = 12) (ly : y.length = 12) (lz : z.length = 12) :
    Gives Asm434.sub [z, x, y] [0, 1, 2] 0 [] true (subP (primeOf .p434) (x.take 7) (y.take 7)) := by
  have h := sub' (R := Asm434.sub) (C := AsmCert434.C.sub) (data := [z, x, y]) (x := x) (y := y) lit434 (by decide +kernel) Lemmas.AsmCert434.sub_ok
    (by simp only [List.map_cons, List.map_nil, lx, ly, lz]; rfl) rfl rfl (by omega) (by omega) rfl
  exact h

theorem sub434_zx {x y : List W64} (lx : x.length = 12) (ly : y.length = 12) :
    Gives Asm434.sub [x, y] [0, 0, 1] 0 [] true (subP (primeOf .p434) (x.take 7) (y.take 7)) := by
  have h := sub' (R := Asm434.sub) (C := AsmCert434.C.sub_zx) (data := [x, y]) (x := x) (y := y) lit434 (by decide +kernel) Lemmas.AsmCert434.sub_zx_ok
    (by simp only [List.map_cons, List.map_nil, lx, ly]; rfl) rfl rfl (by omega) (by omega) rfl
  exact h

theorem sub434_zy {x y : List W64} (lx : x.length = 12) (ly : y.length = 12) :
    Gives Asm434.sub [y, x] [0, 1, 0] 0 [] true (subP (primeOf .p434) (x.take 7) (y.take 7)) := by
  have h := sub' (R := Asm434.sub) (C := AsmCert434.C.sub_zy) (data := [y, x]) (x := x) (y := y) lit434 (by decide +kernel) Lemmas.AsmCert434.sub_zy_ok
    (by simp only [List.map_cons, List.map_nil, lx, ly]; rfl) rfl rfl (by omega) (by omega) rfl
  exact h

theorem sub434_xy {x z : List W64} (lx : x.length = 12) (lz : z.length = 12) :
    Gives Asm434.sub [z, x] [0, 1, 1] 0 [] true (subP (primeOf .p434) (x.take 7) (x.take 7)) := by
  have h := sub' (R := Asm434.sub) (C := AsmCert434.C.sub_xy) (data := [z, x]) (x := x) (y := x) lit434 (by decide +kernel) Lemmas.AsmCert434.sub_xy_ok
    (by simp only [List.map_cons, List.map_nil, lx, lz]; rfl) rfl rfl (by omega) (by omega) rfl
  exact h

theorem sub434_zxy {x : List W64} (lx : x.length = 12) :
    Gives Asm434.sub [x] [0, 0, 0] 0 [] true (subP (primeOf .p434) (x.take 7) (x.take 7)) := by
  have h := sub' (R := Asm434.sub) (C := AsmCert434.C.sub_zxy) (data := [x]) (x := x) (y := x) lit434 (by decide +kernel) Lemmas.AsmCert434.sub_zxy_ok
    (by simp only [List.map_cons, List.map_nil, lx]; rfl) rfl rfl (by omega) (by omega) rfl
  exact h

theorem sub434_all (a : Alias) {z x y : List W64} (lz : z.length = 12) (lx : x.length = 12) (ly : y.length = 12) :
    Gives Asm434.sub (a.data z x y) a.args 0 [] true (subP (primeOf .p434) (x.take 7) ((a.snd x y).take 7)) := by
  cases a
  · exact sub434 lx ly lz
  · exact sub434_zx lx ly
  · exact sub434_zy lx ly
  · exact sub434_xy lx lz
  · exact sub434_zxy lx

theorem adl434 {x y z : List W64} (lx : x.length = 24) (ly : y.length = 24) (lz : z.length = 24) :
    Gives Asm434.adl [z, x, y] [0, 1, 2] 0 [] true (adlP (x.take 14) (y.take 14)) := by
  have h := adl_ok (R := Asm434.adl) (C := AsmCert434.C.adl) (data := [z, x, y]) (x := x) (y := y) Lemmas.AsmCert434.adl_ok
    (by simp only [List.map_cons, List.map_nil, lx, ly, lz]; rfl) rfl rfl (by omega) (by omega) rfl
  exact h

theorem adl434_zx {x y : List W64} (lx : x.length = 24) (ly : y.length = 24) :
    Gives Asm434.adl [x, y] [0, 0, 1] 0 [] true (adlP (x.take 14) (y.take 14)) := by
  have h := adl_ok (R := Asm434.adl) (C := AsmCert434.C.adl_zx) (data := [x, y]) (x := x) (y := y) Lemmas.AsmCert434.adl_zx_ok
    (by simp only [List.map_cons, List.map_nil, lx, ly]; rfl) rfl rfl (by omega) (by omega) rfl
  exact h

theorem adl434_zy {x y : List W64} (lx : x.length = 24) (ly : y.length = 24) :
    Gives Asm434.adl [y, x] [0, 1, 0] 0 [] true (adlP (x.take 14) (y.take 14)) := by
  have h := adl_ok (R := Asm434.adl) (C := AsmCert434.C.adl_zy) (data := [y, x]) (x := x) (y := y) Lemmas.AsmCert434.adl_zy_ok
    (by simp only [List.map_cons, List.map_nil, lx, ly]; rfl) rfl rfl (by omega) (by omega) rfl
  exact h

theorem adl434_xy {x z : List W64} (lx : x.length = 24) (lz : z.length = 24) :
    Gives Asm434.adl [z, x] [0, 1, 1] 0 [] true (adlP (x.take 14) (x.take 14)) := by
  have h := adl_ok (R := Asm434.adl) (C := AsmCert434.C.adl_xy) (data := [z, x]) (x := x) (y := x) Lemmas.AsmCert434.adl_xy_ok
    (by simp only [List.map_cons, List.map_nil, lx, lz]; rfl) rfl rfl (by omega) (by omega) rfl
  exact h

theorem adl434_zxy {x : List W64} (lx : x.length = 24) :
    Gives Asm434.adl [x] [0, 0, 0] 0 [] true (adlP (x.take 14) (x.take 14)) := by
  have h := adl_ok (R := Asm434.adl) (C := AsmCert434.C.adl_zxy) (data := [x]) (x := x) (y := x) Lemmas.AsmCert434.adl_zxy_ok
    (by simp only [List.map_cons, List.map_nil, lx]; rfl) rfl rfl (by omega) (by omega) rfl
  exact h

theorem adl434_all (a : Alias) {z x y : List W64} (lz : z.length = 24) (lx : x.length = 24) (ly : y.length = 24) :
    Gives Asm434.adl (a.data z x y) a.args 0 [] true (adlP (x.take 14) ((a.snd x y).take 14)) := by
  cases a
  · exact adl434 lx ly lz
  · exact adl434_zx lx ly
  · exact adl434_zy lx ly
  · exact adl434_xy lx lz
  · exact adl434_zxy lx

theorem sul434 {x y z : List W64} (lx : x.length = 24) (ly : y.length = 24) (lz : z.length = 24) :
    Gives Asm434.sul [z, x, y] [0, 1, 2] 0 [] true (sulP (primeOf .p434) (x.take 14) (y.take 14)) := by
  have h := sul' (R := Asm434.sul) (C := AsmCert434.C.sul) (data := [z, x, y]) (x := x) (y := y) lit434 rfl (by decide +kernel) Lemmas.AsmCert434.sul_ok
    (by simp only [List.map_cons, List.map_nil, lx, ly, lz]; rfl) rfl rfl (by omega) (by omega) rfl
  exact h

theorem sul434_zx {x y : List W64} (lx : x.length = 24) (ly : y.length = 24) :
    Gives Asm434.sul [x, y] [0, 0, 1] 0 [] true (sulP (primeOf .p434) (x.take 14) (y.take 14)) := by
  have h := sul' (R := Asm434.sul) (C := AsmCert434.C.sul_zx) (data := [x, y]) (x := x) (y := y) lit434 rfl (by decide +kernel) Lemmas.AsmCert434.sul_zx_ok
    (by simp only [List.map_cons, List.map_nil, lx, ly]; rfl) rfl rfl (by omega) (by omega) rfl
  exact h

theorem sul434_zy {x y : List W64} (lx : x.length = 24) (ly : y.length = 24) :
    Gives Asm434.sul [y, x] [0, 1, 0] 0 [] true (sulP (primeOf .p434) (x.take 14) (y.take 14)) := by
  have h := sul' (R := Asm434.sul) (C := AsmCert434.C.sul_zy) (data := [y, x]) (x := x) (y := y) lit434 rfl (by decide +kernel) Lemmas.AsmCert434.sul_zy_ok
    (by simp only [List.map_cons, List.map_nil, lx, ly]; rfl) rfl rfl (by omega) (by omega) rfl
  exact h

theorem sul434_xy {x z : List W64} (lx : x.length = 24) (lz : z.length = 24) :
    Gives Asm434.sul [z, x] [0, 1, 1] 0 [] true (sulP (primeOf .p434) (x.take 14) (x.take 14)) := by
  have h := sul' (R := Asm434.sul) (C := AsmCert434.C.sul_xy) (data := [z, x]) (x := x) (y := x) lit434 rfl (by decide +kernel) Lemmas.AsmCert434.sul_xy_ok
    (by simp only [List.map_cons, List.map_nil, lx, lz]; rfl) rfl rfl (by omega) (by omega) rfl
  exact h

theorem sul434_zxy {x : List W64} (lx : x.length = 24) :
    Gives Asm434.sul [x] [0, 0, 0] 0 [] true (sulP (primeOf .p434) (x.take 14) (x.take 14)) := by
  have h := sul' (R := Asm434.sul) (C := AsmCert434.C.sul_zxy) (data := [x]) (x := x) (y := x) lit434 rfl (by decide +kernel) Lemmas.AsmCert434.sul_zxy_ok
    (by simp only [List.map_cons, List.map_nil, lx]; rfl) rfl rfl (by omega) (by omega) rfl
  exact h

theorem sul434_all (a : Alias) {z x y : List W64} (lz : z.length = 24) (lx : x.length = 24) (ly : y.length = 24) :
    Gives Asm434.sul (a.data z x y) a.args 0 [] true (sulP (primeOf .p434) (x.take 14) ((a.snd x y).take 14)) := by
  cases a
  · exact sul434 lx ly lz
  · exact sul434_zx lx ly
  · exact sul434_zy lx ly
  · exact sul434_xy lx lz
  · exact sul434_zxy lx

theorem mod434 {x : List W64} (lx : x.length = 12) :
    Gives Asm434.mod [x] [0] 0 [] true (modP (primeOf .p434) (x.take 7)) := by
  have h := mod' (R := Asm434.mod) (C := AsmCert434.C.mod) (data := [x]) (x := x) lit434 Lemmas.AsmCert434.mod_ok
    (by simp only [List.map_cons, List.map_nil, lx]; rfl) rfl (by omega) rfl
  exact h

theorem rdc434 {x z : List W64} (lx : x.length = 24) (lz : z.length = 12) :
    Gives Asm434.rdc [z, x] [0, 1] 0 [1] true (rdcP (primeOf .p434) (x.take 14)) := by
  have h := rdc' (R := Asm434.rdc) (C := AsmCert434.C.rdc) (data := [z, x]) (x := x) lit434 rfl Lemmas.AsmCert434.rdc_ok
    (by simp only [List.map_cons, List.map_nil, lx, lz]; rfl) rfl (by omega) rfl
  exact h

theorem rdc_adx434 {x z : List W64} (lx : x.length = 24) (lz : z.length = 12) :
    Gives Asm434.rdc_adx [z, x] [0, 1] 0 [1] true (rdcP (primeOf .p434) (x.take 14)) := by
  have h := rdc' (R := Asm434.rdc_adx) (C := AsmCert434.C.rdc_adx) (data := [z, x]) (x := x) lit434 rfl Lemmas.AsmCert434.rdc_adx_ok
    (by simp only [List.map_cons, List.map_nil, lx, lz]; rfl) rfl (by omega) rfl
  exact h

theorem mul434 {x y z : List W64} (lx : x.length = 12) (ly : y.length = 12) (lz : z.length = 24) :
    Gives Asm434.mul [z, x, y] [0, 1, 2] 0 [] true (mulW (primeOf .p434) (x.take 7) (y.take 7)) := by
  have h := mul' (R := Asm434.mul) (C := AsmCert434.C.mul) (data := [z, x, y]) (x := x) (y := y) lit434 Lemmas.AsmCert434.mul_ok
    (by simp only [List.map_cons, List.map_nil, lx, ly, lz]; rfl) rfl rfl (by omega) (by omega) (fun _ _ j h => absurd h (List.not_mem_nil))
  exact h

theorem mul434_xy {x z : List W64} (lx : x.length = 12) (lz : z.length = 24) :
    Gives Asm434.mul [z, x] [0, 1, 1] 0 [] true (mulW (primeOf .p434) (x.take 7) (x.take 7)) := by
  have h := mul' (R := Asm434.mul) (C := AsmCert434.C.mul_xy) (data := [z, x]) (x := x) (y := x) lit434 Lemmas.AsmCert434.mul_xy_ok
    (by simp only [List.map_cons, List.map_nil, lx, lz]; rfl) rfl rfl (by omega) (by omega) (fun _ _ j h => absurd h (List.not_mem_nil))
  exact h

theorem mul_adx434 {x y z : List W64} (lx : x.length = 12) (ly : y.length = 12) (lz : z.length = 24) :
    Gives Asm434.mul_adx [z, x, y] [0, 1, 2] 0 [] false (mulW (primeOf .p434) (x.take 7) (y.take 7)) := by
  have h := mul' (R := Asm434.mul_adx) (C := AsmCert434.C.mul_adx) (data := [z, x, y]) (x := x) (y := y) lit434 Lemmas.AsmCert434.mul_adx_ok
    (by simp only [List.map_cons, List.map_nil, lx, ly, lz]; rfl) rfl rfl (by omega) (by omega) (fun _ _ j h => absurd h (List.not_mem_nil))
  exact h

theorem mul_adx434_xy {x z : List W64} (lx : x.length = 12) (lz : z.length = 24) :
    Gives Asm434.mul_adx [z, x] [0, 1, 1] 0 [] false (mulW (primeOf .p434) (x.take 7) (x.take 7)) := by
  have h := mul' (R := Asm434.mul_adx) (C := AsmCert434.C.mul_adx_xy) (data := [z, x]) (x := x) (y := x) lit434 Lemmas.AsmCert434.mul_adx_xy_ok
    (by simp only [List.map_cons, List.map_nil, lx, lz]; rfl) rfl rfl (by omega) (by omega) (fun _ _ j h => absurd h (List.not_mem_nil))
  exact h

theorem add503 {x y z : List W64} (lx : x.length = 12) (ly : y.length = 12) (lz : z.length = 12) :
    Gives Asm503.add [z, x, y] [0, 1, 2] 0 [] true (addP (primeOf .p503) (x.take 8) (y.take 8)) := by
  have h := add' (R := Asm503.add) (C := AsmCert503.C.add) (data := [z, x, y]) (x := x) (y := y) lit503 Lemmas.AsmCert503.add_ok
    (by simp only [List.map_cons, List.map_nil, lx, ly, lz]; rfl) rfl rfl (by omega) (by omega) rfl
  exact h

theorem add503_zx {x y : List W64} (lx : x.length = 12) (ly : y.length = 12) :
    Gives Asm503.add [x, y] [0, 0, 1] 0 [] true (addP (primeOf .p503) (x.take 8) (y.take 8)) := by
  have h := add' (R := Asm503.add) (C := AsmCert503.C.add_zx) (data := [x, y]) (x := x) (y := y) lit503 Lemmas.AsmCert503.add_zx_ok
    (by simp only [List.map_cons, List.map_nil, lx, ly]; rfl) rfl rfl (by omega) (by omega) rfl
  exact h

theorem add503_zy {x y : List W64} (lx : x.length = 12) (ly : y.length = 12) :
    Gives Asm503.add [y, x] [0, 1, 0] 0 [] true (addP (primeOf .p503) (x.take 8) (y.take 8)) := by
  have h := add' (R := Asm503.add) (C := AsmCert503.C.add_zy) (data := [y, x]) (x := x) (y := y) lit503 Lemmas.AsmCert503.add_zy_ok
    (by simp only [List.map_cons, List.map_nil, lx, ly]; rfl) rfl rfl (by omega) (by omega) rfl
  exact h

theorem add503_xy {x z : List W64} (lx : x.length = 12) (lz : z.length = 12) :
    Gives Asm503.add [z, x] [0, 1, 1] 0 [] true (addP (primeOf .p503) (x.take 8) (x.take 8)) := by
  have h := add' (R := Asm503.add) (C := AsmCert503.C.add_xy) (data := [z, x]) (x := x) (y := x) lit503 Lemmas.AsmCert503.add_xy_ok
    (by simp only [List.map_cons, List.map_nil, lx, lz]; rfl) rfl rfl (by omega) (by omega) rfl
  exact h

theorem add503_zxy {x : List W64} (lx : x.length = 12) :
    Gives Asm503.add [x] [0, 0, 0] 0 [] true (addP (primeOf .p503) (x.take 8) (x.take 8)) := by
  have h := add' (R := Asm503.add) (C := AsmCert503.C.add_zxy) (data := [x]) (x := x) (y := x) lit503 Lemmas.AsmCert503.add_zxy_ok
    (by simp only [List.map_cons, List.map_nil, lx]; rfl) rfl rfl (by omega) (by omega) rfl
  exact h

theorem add503_all (a : Alias) {z x y : List W64} (lz : z.length = 12) (lx : x.length = 12) (ly : y.length = 12) :
    Gives Asm503.add (a.data z x y) a.args 0 [] true (addP (primeOf .p503) (x.take 8) ((a.snd x y).take 8)) := by
  cases a
  · exact add503 lx ly lz
  · exact add503_zx lx ly
  · exact add503_zy lx ly
  · exact add503_xy lx lz
  · exact add503_zxy lx

theorem sub503 {x y z : List W64} (lx : x.length = 12) (ly : y.length = 12) (lz : z.length = 12) :
    Gives Asm503.sub [z, x, y] [0, 1, 2] 0 [] true (subP (primeOf .p503) (x.take 8) (y.take 8)) := by
  have h := sub' (R := Asm503.sub) (C := AsmCert503.C.sub) (data := [z, x, y]) (x := x) (y := y) lit503 (by decide +kernel) Lemmas.AsmCert503.sub_ok
    (by simp only [List.map_cons, List.map_nil, lx, ly, lz]; rfl) rfl rfl (by omega) (by omega) rfl
  exact h

theorem sub503_zx {x y : List W64} (lx : x.length = 12) (ly : y.length = 12) :
    Gives Asm503.sub [x, y] [0, 0, 1] 0 [] true (subP (primeOf .p503) (x.take 8) (y.take 8)) := by
  have h := sub' (R := Asm503.sub) (C := AsmCert503.C.sub_zx) (data := [x, y]) (x := x) (y := y) lit503 (by decide +kernel) Lemmas.AsmCert503.sub_zx_ok
    (by simp only [List.map_cons, List.map_nil, lx, ly]; rfl) rfl rfl (by omega) (by omega) rfl
  exact h

theorem sub503_zy {x y : List W64} (lx : x.length = 12) (ly : y.length = 12) :
    Gives Asm503.sub [y, x] [0, 1, 0] 0 [] true (subP (primeOf .p503) (x.take 8) (y.take 8)) := by
  have h := sub' (R := Asm503.sub) (C := AsmCert503.C.sub_zy) (data := [y, x]) (x := x) (y := y) lit503 (by decide +kernel) Lemmas.AsmCert503.sub_zy_ok
    (by simp only [List.map_cons, List.map_nil, lx, ly]; rfl) rfl rfl (by omega) (by omega) rfl
  exact h

theorem sub503_xy {x z : List W64} (lx : x.length = 12) (lz : z.length = 12) :
    Gives Asm503.sub [z, x] [0, 1, 1] 0 [] true (subP (primeOf .p503) (x.take 8) (x.take 8)) := by
  have h := sub' (R := Asm503.sub) (C := AsmCert503.C.sub_xy) (data := [z, x]) (x := x) (y := x) lit503 (by decide +kernel) Lemmas.AsmCert503.sub_xy_ok
    (by simp only [List.map_cons, List.map_nil, lx, lz]; rfl) rfl rfl (by omega) (by omega) rfl
  exact h

theorem sub503_zxy {x : List W64} (lx : x.length = 12) :
    Gives Asm503.sub [x] [0, 0, 0] 0 [] true (subP (primeOf .p503) (x.take 8) (x.take 8)) := by
  have h := sub' (R := Asm503.sub) (C := AsmCert503.C.sub_zxy) (data := [x]) (x := x) (y := x) lit503 (by decide +kernel) Lemmas.AsmCert503.sub_zxy_ok
    (by simp only [List.map_cons, List.map_nil, lx]; rfl) rfl rfl (by omega) (by omega) rfl
  exact h

theorem sub503_all (a : Alias) {z x y : List W64} (lz : z.length = 12) (lx : x.length = 12) (ly : y.length = 12) :
    Gives Asm503.sub (a.data z x y) a.args 0 [] true (subP (primeOf .p503) (x.take 8) ((a.snd x y).take 8)) := by
  cases a
  · exact sub503 lx ly lz
  · exact sub503_zx lx ly
  · exact sub503_zy lx ly
  · exact sub503_xy lx lz
  · exact sub503_zxy lx

theorem adl503 {x y z : List W64} (lx : x.length = 24) (ly : y.length = 24) (lz : z.length = 24) :
    Gives Asm503.adl [z, x, y] [0, 1, 2] 0 [] true (adlP (x.take 16) (y.take 16)) := by
  have h := adl_ok (R := Asm503.adl) (C := AsmCert503.C.adl) (data := [z, x, y]) (x := x) (y := y) Lemmas.AsmCert503.adl_ok
    (by simp only [List.map_cons, List.map_nil, lx, ly, lz]; rfl) rfl rfl (by omega) (by omega) rfl
  exact h

theorem adl503_zx {x y : List W64} (lx : x.length = 24) (ly : y.length = 24) :
    Gives Asm503.adl [x, y] [0, 0, 1] 0 [] true (adlP (x.take 16) (y.take 16)) := by
  have h := adl_ok (R := Asm503.adl) (C := AsmCert503.C.adl_zx) (data := [x, y]) (x := x) (y := y) Lemmas.AsmCert503.adl_zx_ok
    (by simp only [List.map_cons, List.map_nil, lx, ly]; rfl) rfl rfl (by omega) (by omega) rfl
  exact h

theorem adl503_zy {x y : List W64} (lx : x.length = 24) (ly : y.length = 24) :
    Gives Asm503.adl [y, x] [0, 1, 0] 0 [] true (adlP (x.take 16) (y.take 16)) := by
  have h := adl_ok (R := Asm503.adl) (C := AsmCert503.C.adl_zy) (data := [y, x]) (x := x) (y := y) Lemmas.AsmCert503.adl_zy_ok
    (by simp only [List.map_cons, List.map_nil, lx, ly]; rfl) rfl rfl (by omega) (by omega) rfl
  exact h

theorem adl503_xy {x z : List W64} (lx : x.length = 24) (lz : z.length = 24) :
    Gives Asm503.adl [z, x] [0, 1, 1] 0 [] true (adlP (x.take 16) (x.take 16)) := by
  have h := adl_ok (R := Asm503.adl) (C := AsmCert503.C.adl_xy) (data := [z, x]) (x := x) (y := x) Lemmas.AsmCert503.adl_xy_ok
    (by simp only [List.map_cons, List.map_nil, lx, lz]; rfl) rfl rfl (by omega) (by omega) rfl
  exact h

theorem adl503_zxy {x : List W64} (lx : x.length = 24) :
    Gives Asm503.adl [x] [0, 0, 0] 0 [] true (adlP (x.take 16) (x.take 16)) := by
  have h := adl_ok (R := Asm503.adl) (C := AsmCert503.C.adl_zxy) (data := [x]) (x := x) (y := x) Lemmas.AsmCert503.adl_zxy_ok
    (by simp only [List.map_cons, List.map_nil, lx]; rfl) rfl rfl (by omega) (by omega) rfl
  exact h

theorem adl503_all (a : Alias) {z x y : List W64} (lz : z.length = 24) (lx : x.length = 24) (ly : y.length = 24) :
    Gives Asm503.adl (a.data z x y) a.args 0 [] true (adlP (x.take 16) ((a.snd x y).take 16)) := by
  cases a
  · exact adl503 lx ly lz
  · exact adl503_zx lx ly
  · exact adl503_zy lx ly
  · exact adl503_xy lx lz
  · exact adl503_zxy lx

theorem sul503 {x y z : List W64} (lx : x.length = 24) (ly : y.length = 24) (lz : z.length = 24) :
    Gives Asm503.sul [z, x, y] [0, 1, 2] 0 [] true (sulP (primeOf .p503) (x.take 16) (y.take 16)) := by
  have h := sul' (R := Asm503.sul) (C := AsmCert503.C.sul) (data := [z, x, y]) (x := x) (y := y) lit503 rfl (by decide +kernel) Lemmas.AsmCert503.sul_ok
    (by simp only [List.map_cons, List.map_nil, lx, ly, lz]; rfl) rfl rfl (by omega) (by omega) rfl
  exact h

theorem sul503_zx {x y : List W64} (lx : x.length = 24) (ly : y.length = 24) :
    Gives Asm503.sul [x, y] [0, 0, 1] 0 [] true (sulP (primeOf .p503) (x.take 16) (y.take 16)) := by
  have h := sul' (R := Asm503.sul) (C := AsmCert503.C.sul_zx) (data := [x, y]) (x := x) (y := y) lit503 rfl (by decide +kernel) Lemmas.AsmCert503.sul_zx_ok
    (by simp only [List.map_cons, List.map_nil, lx, ly]; rfl) rfl rfl (by omega) (by omega) rfl
  exact h

theorem sul503_zy {x y : List W64} (lx : x.length = 24) (ly : y.length = 24) :
    Gives Asm503.sul [y, x] [0, 1, 0] 0 [] true (sulP (primeOf .p503) (x.take 16) (y.take 16)) := by
  have h := sul' (R := Asm503.sul) (C := AsmCert503.C.sul_zy) (data := [y, x]) (x := x) (y := y) lit503 rfl (by decide +kernel) Lemmas.AsmCert503.sul_zy_ok
    (by simp only [List.map_cons, List.map_nil, lx, ly]; rfl) rfl rfl (by omega) (by omega) rfl
  exact h

theorem sul503_xy {x z : List W64} (lx : x.length = 24) (lz : z.length = 24) :
    Gives Asm503.sul [z, x] [0, 1, 1] 0 [] true (sulP (primeOf .p503) (x.take 16) (x.take 16)) := by
  have h := sul' (R := Asm503.sul) (C := AsmCert503.C.sul_xy) (data := [z, x]) (x := x) (y := x) lit503 rfl (by decide +kernel) Lemmas.AsmCert503.sul_xy_ok
    (by simp only [List.map_cons, List.map_nil, lx, lz]; rfl) rfl rfl (by omega) (by omega) rfl
  exact h

theorem sul503_zxy {x : List W64} (lx : x.length = 24) :
    Gives Asm503.sul [x] [0, 0, 0] 0 [] true (sulP (primeOf .p503) (x.take 16) (x.take 16)) := by
  have h := sul' (R := Asm503.sul) (C := AsmCert503.C.sul_zxy) (data := [x]) (x := x) (y := x) lit503 rfl (by decide +kernel) Lemmas.AsmCert503.sul_zxy_ok
    (by simp only [List.map_cons, List.map_nil, lx]; rfl) rfl rfl (by omega) (by omega) rfl
  exact h

theorem sul503_all (a : Alias) {z x y : List W64} (lz : z.length = 24) (lx : x.length = 24) (ly : y.length = 24) :
    Gives Asm503.sul (a.data z x y) a.args 0 [] true (sulP (primeOf .p503) (x.take 16) ((a.snd x y).take 16)) := by
  cases a
  · exact sul503 lx ly lz
  · exact sul503_zx lx ly
  · exact sul503_zy lx ly
  · exact sul503_xy lx lz
  · exact sul503_zxy lx

theorem mod503 {x : List W64} (lx : x.length = 12) :
    Gives Asm503.mod [x] [0] 0 [] true (modP (primeOf .p503) (x.take 8)) := by
  have h := mod' (R := Asm503.mod) (C := AsmCert503.C.mod) (data := [x]) (x := x) lit503 Lemmas.AsmCert503.mod_ok
    (by simp only [List.map_cons, List.map_nil, lx]; rfl) rfl (by omega) rfl
  exact h

theorem rdc503 {x z : List W64} (lx : x.length = 24) (lz : z.length = 12) :
    Gives Asm503.rdc [z, x] [0, 1] 0 [] true (rdcP (primeOf .p503) (x.take 16)) := by
  have h := rdc' (R := Asm503.rdc) (C := AsmCert503.C.rdc) (data := [z, x]) (x := x) lit503 rfl Lemmas.AsmCert503.rdc_ok
    (by simp only [List.map_cons, List.map_nil, lx, lz]; rfl) rfl (by omega) rfl
  exact h

theorem rdc_bmi2503 {x z : List W64} (lx : x.length = 24) (lz : z.length = 12) :
    Gives Asm503.rdc_bmi2 [z, x] [0, 1] 0 [1] true (rdcP (primeOf .p503) (x.take 16)) := by
  have h := rdc' (R := Asm503.rdc_bmi2) (C := AsmCert503.C.rdc_bmi2) (data := [z, x]) (x := x) lit503 rfl Lemmas.AsmCert503.rdc_bmi2_ok
    (by simp only [List.map_cons, List.map_nil, lx, lz]; rfl) rfl (by omega) rfl
  exact h

theorem rdc_adx503 {x z : List W64} (lx : x.length = 24) (lz : z.length = 12) :
    Gives Asm503.rdc_adx [z, x] [0, 1] 0 [1] true (rdcP (primeOf .p503) (x.take 16)) := by
  have h := rdc' (R := Asm503.rdc_adx) (C := AsmCert503.C.rdc_adx) (data := [z, x]) (x := x) lit503 rfl Lemmas.AsmCert503.rdc_adx_ok
    (by simp only [List.map_cons, List.map_nil, lx, lz]; rfl) rfl (by omega) rfl
  exact h

theorem mul503 {x y z : List W64} (lx : x.length = 12) (ly : y.length = 12) (lz : z.length = 24) (tx : (x.getD 7 0).toNat < 2 ^ 63) (ty : (y.getD 7 0).toNat < 2 ^ 63) :
    Gives Asm503.mul [z, x, y] [0, 1, 2] 0 [] true (mulW (primeOf .p503) (x.take 8) (y.take 8)) := by
  have h := mul' (R := Asm503.mul) (C := AsmCert503.C.mul) (data := [z, x, y]) (x := x) (y := y) lit503 Lemmas.AsmCert503.mul_ok
    (by simp only [List.map_cons, List.map_nil, lx, ly, lz]; rfl) rfl rfl (by omega) (by omega) (tops3 lz lx ly tx ty (by decide) )
  exact h

theorem mul503_xy {x z : List W64} (lx : x.length = 12) (lz : z.length = 24) (tx : (x.getD 7 0).toNat < 2 ^ 63) :
    Gives Asm503.mul [z, x] [0, 1, 1] 0 [] true (mulW (primeOf .p503) (x.take 8) (x.take 8)) := by
  have h := mul' (R := Asm503.mul) (C := AsmCert503.C.mul_xy) (data := [z, x]) (x := x) (y := x) lit503 Lemmas.AsmCert503.mul_xy_ok
    (by simp only [List.map_cons, List.map_nil, lx, lz]; rfl) rfl rfl (by omega) (by omega) (tops2 lz lx tx (by decide) )
  exact h

theorem mul_bmi2503 {x y z : List W64} (lx : x.length = 12) (ly : y.length = 12) (lz : z.length = 24) (tx : (x.getD 7 0).toNat < 2 ^ 63) (ty : (y.getD 7 0).toNat < 2 ^ 63) :
    Gives Asm503.mul_bmi2 [z, x, y] [0, 1, 2] 0 [] true (mulW (primeOf .p503) (x.take 8) (y.take 8)) := by
  have h := mul' (R := Asm503.mul_bmi2) (C := AsmCert503.C.mul_bmi2) (data := [z, x, y]) (x := x) (y := y) lit503 Lemmas.AsmCert503.mul_bmi2_ok
    (by simp only [List.map_cons, List.map_nil, lx, ly, lz]; rfl) rfl rfl (by omega) (by omega) (tops3 lz lx ly tx ty (by decide) )
  exact h

theorem mul_bmi2503_xy {x z : List W64} (lx : x.length = 12) (lz : z.length = 24) (tx : (x.getD 7 0).toNat < 2 ^ 63) :
    Gives Asm503.mul_bmi2 [z, x] [0, 1, 1] 0 [] true (mulW (primeOf .p503) (x.take 8) (x.take 8)) := by
  have h := mul' (R := Asm503.mul_bmi2) (C := AsmCert503.C.mul_bmi2_xy) (data := [z, x]) (x := x) (y := x) lit503 Lemmas.AsmCert503.mul_bmi2_xy_ok
    (by simp only [List.map_cons, List.map_nil, lx, lz]; rfl) rfl rfl (by omega) (by omega) (tops2 lz lx tx (by decide) )
  exact h

theorem mul_adx503 {x y z : List W64} (lx : x.length = 12) (ly : y.length = 12) (lz : z.length = 24) (tx : (x.getD 7 0).toNat < 2 ^ 63) (ty : (y.getD 7 0).toNat < 2 ^ 63) :
    Gives Asm503.mul_adx [z, x, y] [0, 1, 2] 0 [] true (mulW (primeOf .p503) (x.take 8) (y.take 8)) := by
  have h := mul' (R := Asm503.mul_adx) (C := AsmCert503.C.mul_adx) (data := [z, x, y]) (x := x) (y := y) lit503 Lemmas.AsmCert503.mul_adx_ok
    (by simp only [List.map_cons, List.map_nil, lx, ly, lz]; rfl) rfl rfl (by omega) (by omega) (tops3 lz lx ly tx ty (by decide) )
  exact h

theorem mul_adx503_xy {x z : List W64} (lx : x.length = 12) (lz : z.length = 24) (tx : (x.getD 7 0).toNat < 2 ^ 63) :
    Gives Asm503.mul_adx [z, x] [0, 1, 1] 0 [] true (mulW (primeOf .p503) (x.take 8) (x.take 8)) := by
  have h := mul' (R := Asm503.mul_adx) (C := AsmCert503.C.mul_adx_xy) (data := [z, x]) (x := x) (y := x) lit503 Lemmas.AsmCert503.mul_adx_xy_ok
    (by simp only [List.map_cons, List.map_nil, lx, lz]; rfl) rfl rfl (by omega) (by omega) (tops2 lz lx tx (by decide) )
  exact h

theorem add751 {x y z : List W64} (lx : x.length = 12) (ly : y.length = 12) (lz : z.length = 12) :
    Gives Asm751.add [z, x, y] [0, 1, 2] 0 [] true (addP (primeOf .p751) (x.take 12) (y.take 12)) := by
  have h := add' (R := Asm751.add) (C := AsmCert751.C.add) (data := [z, x, y]) (x := x) (y := y) lit751 Lemmas.AsmCert751.add_ok
    (by simp only [List.map_cons, List.map_nil, lx, ly, lz]; rfl) rfl rfl (by omega) (by omega) rfl
  exact h

theorem add751_zx {x y : List W64} (lx : x.length = 12) (ly : y.length = 12) :
    Gives Asm751.add [x, y] [0, 0, 1] 0 [] true (addP (primeOf .p751) (x.take 12) (y.take 12)) := by
  have h := add' (R := Asm751.add) (C := AsmCert751.C.add_zx) (data := [x, y]) (x := x) (y := y) lit751 Lemmas.AsmCert751.add_zx_ok
    (by simp only [List.map_cons, List.map_nil, lx, ly]; rfl) rfl rfl (by omega) (by omega) rfl
  exact h

theorem add751_zy {x y : List W64} (lx : x.length = 12) (ly : y.length = 12) :
    Gives Asm751.add [y, x] [0, 1, 0] 0 [] true (addP (primeOf .p751) (x.take 12) (y.take 12)) := by
  have h := add' (R := Asm751.add) (C := AsmCert751.C.add_zy) (data := [y, x]) (x := x) (y := y) lit751 Lemmas.AsmCert751.add_zy_ok
    (by simp only [List.map_cons, List.map_nil, lx, ly]; rfl) rfl rfl (by omega) (by omega) rfl
  exact h

theorem add751_xy {x z : List W64} (lx : x.length = 12) (lz : z.length = 12) :
    Gives Asm751.add [z, x] [0, 1, 1] 0 [] true (addP (primeOf .p751) (x.take 12) (x.take 12)) := by
  have h := add' (R := Asm751.add) (C := AsmCert751.C.add_xy) (data := [z, x]) (x := x) (y := x) lit751 Lemmas.AsmCert751.add_xy_ok
    (by simp only [List.map_cons, List.map_nil, lx, lz]; rfl) rfl rfl (by omega) (by omega) rfl
  exact h

theorem add751_zxy {x : List W64} (lx : x.length = 12) :
    Gives Asm751.add [x] [0, 0, 0] 0 [] true (addP (primeOf .p751) (x.take 12) (x.take 12)) := by
  have h := add' (R := Asm751.add) (C := AsmCert751.C.add_zxy) (data := [x]) (x := x) (y := x) lit751 Lemmas.AsmCert751.add_zxy_ok
    (by simp only [List.map_cons, List.map_nil, lx]; rfl) rfl rfl (by omega) (by omega) rfl
  exact h

theorem add751_all (a : Alias) {z x y : List W64} (lz : z.length = 12) (lx : x.length = 12) (ly : y.length = 12) :
    Gives Asm751.add (a.data z x y) a.args 0 [] true (addP (primeOf .p751) (x.take 12) ((a.snd x y).take 12)) := by
  cases a
  · exact add751 lx ly lz
  · exact add751_zx lx ly
  · exact add751_zy lx ly
  · exact add751_xy lx lz
  · exact add751_zxy lx

theorem sub751 {x y z : List W64} (lx : x.length = 12) (ly : y.length = 12) (lz : z.length = 12) :
    Gives Asm751.sub [z, x, y] [0, 1, 2] 0 [] true (subP (primeOf .p751) (x.take 12) (y.take 12)) := by
  have h := sub' (R := Asm751.sub) (C := AsmCert751.C.sub) (data := [z, x, y]) (x := x) (y := y) lit751 (by decide +kernel) Lemmas.AsmCert751.sub_ok
    (by simp only [List.map_cons, List.map_nil, lx, ly, lz]; rfl) rfl rfl (by omega) (by omega) rfl
  exact h

theorem sub751_zx {x y : List W64} (lx : x.length = 12) (ly : y.length = 12) :
    Gives Asm751.sub [x, y] [0, 0, 1] 0 [] true (subP (primeOf .p751) (x.take 12) (y.take 12)) := by
  have h := sub' (R := Asm751.sub) (C := AsmCert751.C.sub_zx) (data := [x, y]) (x := x) (y := y) lit751 (by decide +kernel) Lemmas.AsmCert751.sub_zx_ok
    (by simp only [List.map_cons, List.map_nil, lx, ly]; rfl) rfl rfl (by omega) (by omega) rfl
  exact h

theorem sub751_zy {x y : List W64} (lx : x.length = 12) (ly : y.length = 12) :
    Gives Asm751.sub [y, x] [0, 1, 0] 0 [] true (subP (primeOf .p751) (x.take 12) (y.take 12)) := by
  have h := sub' (R := Asm751.sub) (C := AsmCert751.C.sub_zy) (data := [y, x]) (x := x) (y := y) lit751 (by decide +kernel) Lemmas.AsmCert751.sub_zy_ok
    (by simp only [List.map_cons, List.map_nil, lx, ly]; rfl) rfl rfl (by omega) (by omega) rfl
  exact h

theorem sub751_xy {x z : List W64} (lx : x.length = 12) (lz : z.length = 12) :
    Gives Asm751.sub [z, x] [0, 1, 1] 0 [] true (subP (primeOf .p751) (x.take 12) (x.take 12)) := by
  have h := sub' (R := Asm751.sub) (C := AsmCert751.C.sub_xy) (data := [z, x]) (x := x) (y := x) lit751 (by decide +kernel) Lemmas.AsmCert751.sub_xy_ok
    (by simp only [List.map_cons, List.map_nil, lx, lz]; rfl) rfl rfl (by omega) (by omega) rfl
  exact h

theorem sub751_zxy {x : List W64} (lx : x.length = 12) :
    Gives Asm751.sub [x] [0, 0, 0] 0 [] true (subP (primeOf .p751) (x.take 12) (x.take 12)) := by
  have h := sub' (R := Asm751.sub) (C := AsmCert751.C.sub_zxy) (data := [x]) (x := x) (y := x) lit751 (by decide +kernel) Lemmas.AsmCert751.sub_zxy_ok
    (by simp only [List.map_cons, List.map_nil, lx]; rfl) rfl rfl (by omega) (by omega) rfl
  exact h

theorem sub751_all (a : Alias) {z x y : List W64} (lz : z.length = 12) (lx : x.length = 12) (ly : y.length = 12) :
    Gives Asm751.sub (a.data z x y) a.args 0 [] true (subP (primeOf .p751) (x.take 12) ((a.snd x y).take 12)) := by
  cases a
  · exact sub751 lx ly lz
  · exact sub751_zx lx ly
  · exact sub751_zy lx ly
  · exact sub751_xy lx lz
  · exact sub751_zxy lx

theorem adl751 {x y z : List W64} (lx : x.length = 24) (ly : y.length = 24) (lz : z.length = 24) :
    Gives Asm751.adl [z, x, y] [0, 1, 2] 0 [] true (adlP (x.take 24) (y.take 24)) := by
  have h := adl_ok (R := Asm751.adl) (C := AsmCert751.C.adl) (data := [z, x, y]) (x := x) (y := y) Lemmas.AsmCert751.adl_ok
    (by simp only [List.map_cons, List.map_nil, lx, ly, lz]; rfl) rfl rfl (by omega) (by omega) rfl
  exact h

theorem adl751_zx {x y : List W64} (lx : x.length = 24) (ly : y.length = 24) :
    Gives Asm751.adl [x, y] [0, 0, 1] 0 [] true (adlP (x.take 24) (y.take 24)) := by
  have h := adl_ok (R := Asm751.adl) (C := AsmCert751.C.adl_zx) (data := [x, y]) (x := x) (y := y) Lemmas.AsmCert751.adl_zx_ok
    (by simp only [List.map_cons, List.map_nil, lx, ly]; rfl) rfl rfl (by omega) (by omega) rfl
  exact h

theorem adl751_zy {x y : List W64} (lx : x.length = 24) (ly : y.length = 24) :
    Gives Asm751.adl [y, x] [0, 1, 0] 0 [] true (adlP (x.take 24) (y.take 24)) := by
  have h := adl_ok (R := Asm751.adl) (C := AsmCert751.C.adl_zy) (data := [y, x]) (x := x) (y := y) Lemmas.AsmCert751.adl_zy_ok
    (by simp only [List.map_cons, List.map_nil, lx, ly]; rfl) rfl rfl (by omega) (by omega) rfl
  exact h

theorem adl751_xy {x z : List W64} (lx : x.length = 24) (lz : z.length = 24) :
    Gives Asm751.adl [z, x] [0, 1, 1] 0 [] true (adlP (x.take 24) (x.take 24)) := by
  have h := adl_ok (R := Asm751.adl) (C := AsmCert751.C.adl_xy) (data := [z, x]) (x := x) (y := x) Lemmas.AsmCert751.adl_xy_ok
    (by simp only [List.map_cons, List.map_nil, lx, lz]; rfl) rfl rfl (by omega) (by omega) rfl
  exact h

theorem adl751_zxy {x : List W64} (lx : x.length = 24) :
    Gives Asm751.adl [x] [0, 0, 0] 0 [] true (adlP (x.take 24) (x.take 24)) := by
  have h := adl_ok (R := Asm751.adl) (C := AsmCert751.C.adl_zxy) (data := [x]) (x := x) (y := x) Lemmas.AsmCert751.adl_zxy_ok
    (by simp only [List.map_cons, List.map_nil, lx]; rfl) rfl rfl (by omega) (by omega) rfl
  exact h

theorem adl751_all (a : Alias) {z x y : List W64} (lz : z.length = 24) (lx : x.length = 24) (ly : y.length = 24) :
    Gives Asm751.adl (a.data z x y) a.args 0 [] true (adlP (x.take 24) ((a.snd x y).take 24)) := by
  cases a
  · exact adl751 lx ly lz
  · exact adl751_zx lx ly
  · exact adl751_zy lx ly
  · exact adl751_xy lx lz
  · exact adl751_zxy lx

theorem sul751 {x y z : List W64} (lx : x.length = 24) (ly : y.length = 24) (lz : z.length = 24) :
    Gives Asm751.sul [z, x, y] [0, 1, 2] 0 [] true (sulP (primeOf .p751) (x.take 24) (y.take 24)) := by
  have h := sul' (R := Asm751.sul) (C := AsmCert751.C.sul) (data := [z, x, y]) (x := x) (y := y) lit751 rfl (by decide +kernel) Lemmas.AsmCert751.sul_ok
    (by simp only [List.map_cons, List.map_nil, lx, ly, lz]; rfl) rfl rfl (by omega) (by omega) rfl
  exact h

theorem sul751_zx {x y : List W64} (lx : x.length = 24) (ly : y.length = 24) :
    Gives Asm751.sul [x, y] [0, 0, 1] 0 [] true (sulP (primeOf .p751) (x.take 24) (y.take 24)) := by
  have h := sul' (R := Asm751.sul) (C := AsmCert751.C.sul_zx) (data := [x, y]) (x := x) (y := y) lit751 rfl (by decide +kernel) Lemmas.AsmCert751.sul_zx_ok
    (by simp only [List.map_cons, List.map_nil, lx, ly]; rfl) rfl rfl (by omega) (by omega) rfl
  exact h

theorem sul751_zy {x y : List W64} (lx : x.length = 24) (ly : y.length = 24) :
    Gives Asm751.sul [y, x] [0, 1, 0] 0 [] true (sulP (primeOf .p751) (x.take 24) (y.take 24)) := by
  have h := sul' (R := Asm751.sul) (C := AsmCert751.C.sul_zy) (data := [y, x]) (x := x) (y := y) lit751 rfl (by decide +kernel) Lemmas.AsmCert751.sul_zy_ok
    (by simp only [List.map_cons, List.map_nil, lx, ly]; rfl) rfl rfl (by omega) (by omega) rfl
  exact h

theorem sul751_xy {x z : List W64} (lx : x.length = 24) (lz : z.length = 24) :
    Gives Asm751.sul [z, x] [0, 1, 1] 0 [] true (sulP (primeOf .p751) (x.take 24) (x.take 24)) := by
  have h := sul' (R := Asm751.sul) (C := AsmCert751.C.sul_xy) (data := [z, x]) (x := x) (y := x) lit751 rfl (by decide +kernel) Lemmas.AsmCert751.sul_xy_ok
    (by simp only [List.map_cons, List.map_nil, lx, lz]; rfl) rfl rfl (by omega) (by omega) rfl
  exact h

theorem sul751_zxy {x : List W64} (lx : x.length = 24) :
    Gives Asm751.sul [x] [0, 0, 0] 0 [] true (sulP (primeOf .p751) (x.take 24) (x.take 24)) := by
  have h := sul' (R := Asm751.sul) (C := AsmCert751.C.sul_zxy) (data := [x]) (x := x) (y := x) lit751 rfl (by decide +kernel) Lemmas.AsmCert751.sul_zxy_ok
    (by simp only [List.map_cons, List.map_nil, lx]; rfl) rfl rfl (by omega) (by omega) rfl
  exact h

theorem sul751_all (a : Alias) {z x y : List W64} (lz : z.length = 24) (lx : x.length = 24) (ly : y.length = 24) :
    Gives Asm751.sul (a.data z x y) a.args 0 [] true (sulP (primeOf .p751) (x.take 24) ((a.snd x y).take 24)) := by
  cases a
  · exact sul751 lx ly lz
  · exact sul751_zx lx ly
  · exact sul751_zy lx ly
  · exact sul751_xy lx lz
  · exact sul751_zxy lx

theorem mod751 {x : List W64} (lx : x.length = 12) :
    Gives Asm751.mod [x] [0] 0 [] true (modP (primeOf .p751) (x.take 12)) := by
  have h := mod' (R := Asm751.mod) (C := AsmCert751.C.mod) (data := [x]) (x := x) lit751 Lemmas.AsmCert751.mod_ok
    (by simp only [List.map_cons, List.map_nil, lx]; rfl) rfl (by omega) rfl
  exact h

theorem rdc751 {x z : List W64} (lx : x.length = 24) (lz : z.length = 12) :
    Gives Asm751.rdc [z, x] [0, 1] 0 [] true (rdcP (primeOf .p751) (x.take 24)) := by
  have h := rdc' (R := Asm751.rdc) (C := AsmCert751.C.rdc) (data := [z, x]) (x := x) lit751 rfl Lemmas.AsmCert751.rdc_ok
    (by simp only [List.map_cons, List.map_nil, lx, lz]; rfl) rfl (by omega) rfl
  exact h

theorem rdc_bmi2751 {x z : List W64} (lx : x.length = 24) (lz : z.length = 12) :
    Gives Asm751.rdc_bmi2 [z, x] [0, 1] 0 [1] false (rdcP (primeOf .p751) (x.take 24)) := by
  have h := rdc' (R := Asm751.rdc_bmi2) (C := AsmCert751.C.rdc_bmi2) (data := [z, x]) (x := x) lit751 rfl Lemmas.AsmCert751.rdc_bmi2_ok
    (by simp only [List.map_cons, List.map_nil, lx, lz]; rfl) rfl (by omega) rfl
  exact h

theorem rdc_adx751 {x z : List W64} (lx : x.length = 24) (lz : z.length = 12) :
    Gives Asm751.rdc_adx [z, x] [0, 1] 0 [1] false (rdcP (primeOf .p751) (x.take 24)) := by
  have h := rdc' (R := Asm751.rdc_adx) (C := AsmCert751.C.rdc_adx) (data := [z, x]) (x := x) lit751 rfl Lemmas.AsmCert751.rdc_adx_ok
    (by simp only [List.map_cons, List.map_nil, lx, lz]; rfl) rfl (by omega) rfl
  exact h

theorem mul751 {x y z : List W64} (lx : x.length = 12) (ly : y.length = 12) (lz : z.length = 24) (tx : (x.getD 11 0).toNat < 2 ^ 63) (ty : (y.getD 11 0).toNat < 2 ^ 63) :
    Gives Asm751.mul [z, x, y] [0, 1, 2] 0 [] true (mulW (primeOf .p751) (x.take 12) (y.take 12)) := by
  have h := mul' (R := Asm751.mul) (C := AsmCert751.C.mul) (data := [z, x, y]) (x := x) (y := y) lit751 Lemmas.AsmCert751.mul_ok
    (by simp only [List.map_cons, List.map_nil, lx, ly, lz]; rfl) rfl rfl (by omega) (by omega) (tops3 lz lx ly tx ty (by decide) )
  exact h

theorem mul751_xy {x z : List W64} (lx : x.length = 12) (lz : z.length = 24) (tx : (x.getD 11 0).toNat < 2 ^ 63) :
    Gives Asm751.mul [z, x] [0, 1, 1] 0 [] true (mulW (primeOf .p751) (x.take 12) (x.take 12)) := by
  have h := mul' (R := Asm751.mul) (C := AsmCert751.C.mul_xy) (data := [z, x]) (x := x) (y := x) lit751 Lemmas.AsmCert751.mul_xy_ok
    (by simp only [List.map_cons, List.map_nil, lx, lz]; rfl) rfl rfl (by omega) (by omega) (tops2 lz lx tx (by decide) )
  exact h

end Lemmas.AsmAmd64
