import Verif.Lemmas.Sha3More
/-!
Properties of hash/sha3 (C01-C13).  The model is `Verif/Model/Sha3.lean` and `Sha3Calls.lean`, the
specification `Verif/Spec/Keccak.lean`, `Sha3Inst.lean`, `SpongeObject.lean`, `CShake.lean`.
-/
namespace Props.Sha3
open Model Model.Sha3 Spec.Sponge Spec.Sha3 Lemmas.Sha3

/-- C01.  Any pieces in, any pieces out: the bytes read are the FIPS 202 output on the
concatenation, every call succeeds and reports the full length. -/
theorem c01_stream {P : Plat} (hP : Supported P) (i : Inst) (ws bufs : List (List Byte)) :
    ∃ (c : State) (outs : List (List Byte)),
      callsModel P (new i) (ws.map .write ++ bufs.map .read) =
        some (c, (ws.map fun w => .wrote w.length false) ++ outs.map fun b => .read b b.length) ∧
      outs.map List.length = bufs.map List.length ∧
      outs.flatten = i.out ws.flatten 0 bufs.flatten.length := by
  obtain ⟨c, h1, -, -⟩ := history hP i (ws.map .write ++ bufs.map .read)
  rw [calls_append, calls_writes] at h1
  obtain ⟨outs, g1, g2, g3⟩ := calls_reads i.rate i.suffix i.digestLen bufs (.absorbing ([] ++ ws.flatten))
  refine ⟨c, outs, ?_, g2, g3⟩
  rw [h1, ← g1]

example : Supported platGeneric := .generic
example : Supported platUnaligned := .unaligned
/-- A concrete instance: the first output byte of SHAKE128 of the empty string. -/
example : Inst.shake128.out [] 0 4 = [0x7f, 0x9c, 0x2b, 0xa4] := by
  rw [show Inst.shake128.out [] 0 4 = Spec.Keccak.spongeBytes Spec.Keccak.keccakF 168 0x1f [] 0 4 from rfl,
    sponge_eval (by simp [IsRate]) _ _ _ (by decide)]
  decide +kernel

/-- C01 and C03-C05 in one: every call sequence from a new object gives exactly the results of the
specification object, and never panics. -/
theorem c01_refines {P : Plat} (hP : Supported P) (i : Inst) (h : List Call) :
    (callsModel P (new i) h).map (·.2) =
      some (calls i.rate i.suffix i.digestLen (.absorbing []) h).2 := by
  obtain ⟨c, h1, -, -⟩ := history hP i h
  rw [h1]; rfl

/-- C02.  The permutation of the Go code is Keccak-p[1600,24] on the byte image of the lanes. -/
theorem c02_keccakF (a : Vector W64 25) :
    laneBytes (keccakF1600 a) = Spec.Keccak.keccakF (laneBytes a) := laneBytes_keccakF1600 a

/-- The byte image determines the lanes, so C02 says what the permutation does to every state. -/
theorem c02_image_injective {a b : Vector W64 25} (h : laneBytes a = laneBytes b) : a = b := by
  apply Vector.ext
  intro i hi
  apply BitVec.eq_of_getLsbD_eq
  intro j hj
  have key : ∀ c : Vector W64 25, c[i].getLsbD j = ((laneBytes c).getD (8 * i + j / 8) 0).getLsbD (j % 8) := by
    intro c
    have hk : 8 * i + j / 8 < 200 := by omega
    have h1 := laneBytes_getElem? c (8 * i + j / 8) hk
    rw [List.getD_eq_getElem?_getD, h1, Option.getD_some, BitVec.getLsbD_extractLsb']
    have e1 : (8 * i + j / 8) / 8 = i := by omega
    have e2 : 8 * ((8 * i + j / 8) % 8) + j % 8 = j := by omega
    simp only [e1, e2]
    have : j % 8 < 8 := Nat.mod_lt _ (by decide)
    simp [this]
  rw [key a, key b, h]

example : (keccakF1600 (Vector.replicate 25 0))[0] = 0xF1258F7940E1DDE7 := by decide +kernel

/-- Has something been read since the last reset? -/
def hasRead : List Call → Bool
  | [] => false
  | h => h.foldl (fun b k => match k with | .read _ => true | .sum _ => true | .reset => false | .write _ => b) false

theorem hasRead_spec (r : Nat) (sfx : Byte) (d : Nat) (h : List Call) (o : Obj) (b : Bool)
    (hb : b = true ↔ ∃ m k, o = .squeezing m k) :
    h.foldl (fun b k => match k with | Call.read _ => true | .sum _ => true | .reset => false | .write _ => b) b = true ↔
      ∃ m k, (calls r sfx d o h).1 = .squeezing m k := by
  induction h generalizing o b with
  | nil => exact hb
  | cons a h ih =>
    simp only [List.foldl_cons, calls]
    apply ih
    cases a with
    | write x => cases o <;> simp_all [call]
    | read x => simp [call]
    | sum x => simp [call]
    | reset => simp [call]

theorem hasRead_iff (r : Nat) (sfx : Byte) (d : Nat) (h : List Call) :
    hasRead h = true ↔ ∃ m k, (calls r sfx d (.absorbing []) h).1 = .squeezing m k := by
  have := hasRead_spec r sfx d h (.absorbing []) false (by simp)
  cases h with
  | nil => simp [hasRead, calls]
  | cons a h => exact this

/-- C03.  Once something has been read since the last reset, `Write` reports 0 bytes and an error and
leaves the object as it was; before that, and after `Reset`, it accepts everything. -/
theorem c03_write_after_read {P : Plat} (hP : Supported P) (i : Inst) (h : List Call) (x : List Byte) :
    ∃ c rs, callsModel P (new i) h = some (c, rs) ∧
      (hasRead h = true → write P c x = some (c, 0, some .writeAfterRead)) ∧
      (hasRead h = false → ∃ c', write P c x = some (c', x.length, none)) ∧
      ∃ c', write P (reset c) x = some (c', x.length, none) := by
  obtain ⟨c, h1, h2, h3⟩ := history hP i h
  refine ⟨c, _, h1, ?_, ?_, ?_⟩
  · intro hr
    obtain ⟨m, k, e⟩ := (hasRead_iff i.rate i.suffix i.digestLen h).mp hr
    rw [e] at h2
    simp [write, Squeezing.squeezing h2]
  · intro hr
    have hn : ¬ ∃ m k, (calls i.rate i.suffix i.digestLen (.absorbing []) h).1 = .squeezing m k := by
      rw [← hasRead_iff, hr]; simp
    generalize (calls i.rate i.suffix i.digestLen (.absorbing []) h).1 = o at h2 hn
    cases o with
    | absorbing m =>
      obtain ⟨c', w, -, -⟩ := write_spec hP.good (h2 : Absorbed c m) x
      exact ⟨c', w⟩
    | squeezing m k => exact absurd ⟨m, k, rfl⟩ hn
  · obtain ⟨c', w, -, -⟩ := write_spec hP.good (absorbed_reset h2.rate) x
    exact ⟨c', w⟩

example : hasRead [.write [1], .read [0], .write [2]] = true := rfl
example : hasRead [.write [1], .read [0], .reset, .write [2]] = false := rfl

/-- C04.  After any history `Reset` gives the new object again, so all later results agree. -/
theorem c04_reset {P : Plat} (hP : Supported P) (i : Inst) (h k : List Call) :
    ∃ c rs, callsModel P (new i) h = some (c, rs) ∧ reset c = new i ∧
      (callsModel P (reset c) k).map (·.2) = (callsModel P (new i) k).map (·.2) := by
  obtain ⟨c, h1, h2, h3⟩ := history hP i h
  have e : reset c = new i := by rw [reset_eq_new h3]; exact new_eq i
  exact ⟨c, _, h1, e, by rw [e]⟩

/-- C04 for customised objects. -/
theorem c04_reset_custom {P : Plat} (hP : Supported P) {N S : List Byte} (hN : N.length < 2 ^ 61)
    (hS : S.length < 2 ^ 61) (id : Nat) (hid : id = 4 ∨ id = 5) (h : List Call) {c0 : CState}
    (hc0 : newCShake P N S 0x04 id = some c0) :
    ∃ c rs, scallsModel P (.custom c0) h = some (.custom c, rs) ∧ creset P c = some c0 := by
  have hr : IsRate (sha3Desc id).1 := by rcases hid with rfl | rfl <;> simp [sha3Desc, IsRate]
  obtain ⟨c, xs, h1, h2⟩ := creset_history hP.good hN hS 0x04 hr h hc0
  exact ⟨c, xs, by rw [scalls_custom, h1]; rfl, h2⟩

/-- The hypothesis of `c04_reset_custom` is met for every N, S. -/
theorem c04_custom_exists {P : Plat} (hP : Supported P) {N S : List Byte} (hN : N.length < 2 ^ 61)
    (hS : S.length < 2 ^ 61) (id : Nat) (hid : id = 4 ∨ id = 5) :
    ∃ c, newCShake P N S 0x04 id = some c := by
  have hr : IsRate (sha3Desc id).1 := by rcases hid with rfl | rfl <;> simp [sha3Desc, IsRate]
  obtain ⟨c, h1, -⟩ := newCShake_spec hP.good hN hS 0x04 hr
  exact ⟨c, h1⟩

/-- The full statement of C05: `Sum(b)` returns `b` followed by the digest and leaves an object with
the same future behaviour. -/
def C05Full (P : Plat) : Prop :=
  ∀ (i : Inst) (ws : List (List Byte)) (b : List Byte),
    ∃ c rs c', callsModel P (new i) (ws.map .write) = some (c, rs) ∧
      sum P c b = some (c', b ++ i.digest ws.flatten) ∧
      ∀ k, (callsModel P c' k).map (·.2) = (callsModel P c k).map (·.2)

/-- C05, the half that holds: the result of `Sum(b)` is `b` followed by the digest. Missing: the object
stays usable (false, see `c05_full_false`). -/
theorem c05_sum_partial {P : Plat} (hP : Supported P) (i : Inst) (ws : List (List Byte)) (b : List Byte) :
    ∃ c rs c', callsModel P (new i) (ws.map .write) = some (c, rs) ∧
      sum P c b = some (c', b ++ i.digest ws.flatten) := by
  obtain ⟨c, h1, h2, h3⟩ := history hP i (ws.map .write)
  rw [calls_writes] at h2
  obtain ⟨c', g1, -, -⟩ := call_sim hP.good h2 (.sum b)
  refine ⟨c, _, c', h1, ?_⟩
  simp only [callModel, Option.map_eq_some_iff, call, Obj.pos, Prod.mk.injEq] at g1
  obtain ⟨⟨c'', o⟩, g2, g3, g4⟩ := g1
  simp only at g3 g4
  injection g4 with g4
  rw [g2, g3, g4, h3.1, h3.2.1, h3.2.2, (new_params i).1, (new_params i).2.1, (new_params i).2.2]; rfl

/-- What really happens: after `Sum` every write is refused and the next `Sum` returns the following
`Size()` bytes of the output stream. -/
theorem c05_after_sum {P : Plat} (hP : Supported P) (i : Inst) (ws : List (List Byte)) (b b' x : List Byte) :
    (callsModel P (new i) (ws.map .write ++ [.sum b, .write x, .sum b'])).map (·.2) =
      some ((ws.map fun w => .wrote w.length false) ++
        [.digest (b ++ i.out ws.flatten 0 i.digestLen), .wrote 0 true,
         .digest (b' ++ i.out ws.flatten i.digestLen i.digestLen)]) := by
  rw [c01_refines hP, calls_append, calls_writes]
  simp [calls, call, Obj.pos, Inst.out]

/-- C05 as stated is false for this code. -/
theorem c05_full_false {P : Plat} (hP : Supported P) : ¬ C05Full P := by
  intro hf
  obtain ⟨c, rs, c', h1, h2, h3⟩ := hf .sha3_256 [] []
  simp only [List.map_nil, callsModel, Option.some.injEq, Prod.mk.injEq] at h1
  obtain ⟨rfl, -⟩ := h1
  obtain ⟨c1, g1, g2, -⟩ := call_sim hP.good (o := .absorbing []) (new_absorbed .sha3_256) (.sum [])
  simp only [callModel, h2, Option.map_some, Option.some.injEq, Prod.mk.injEq] at g1
  obtain ⟨rfl, -⟩ := g1
  have h4 := h3 [.write [1]]
  rw [c01_refines hP .sha3_256 [.write [1]]] at h4
  have hq : c'.isSquezing = true := Squeezing.squeezing g2
  simp [callsModel, callModel, write, hq, calls, call] at h4

/-- And two `Sum` calls in a row give different digests (SHA3-256, nothing written). -/
theorem c05_second_sum_differs :
    (callsModel platGeneric (new .sha3_256) [.sum [], .sum []]).map (fun r => r.2[0]?) ≠
      (callsModel platGeneric (new .sha3_256) [.sum [], .sum []]).map (fun r => r.2[1]?) := by
  have h := c01_refines .generic .sha3_256 [.sum [], .sum []]
  simp only [calls, call, Obj.pos] at h
  cases hc : callsModel platGeneric (new .sha3_256) [.sum [], .sum []] with
  | none => rw [hc] at h; simp at h
  | some v =>
    rw [hc] at h
    simp only [Option.map_some, Option.some.injEq] at h
    simp only [Option.map_some, h]
    intro e
    simp only [List.getElem?_cons_zero, List.getElem?_cons_succ, Option.some.injEq, Result.digest.injEq,
      List.nil_append] at e
    have h2 : Spec.Keccak.spongeBytes Spec.Keccak.keccakF 136 6 [] 0 64 =
        Spec.Keccak.spongeBytes Spec.Keccak.keccakF 136 6 [] 0 32 ++
        Spec.Keccak.spongeBytes Spec.Keccak.keccakF 136 6 [] (0 + 32) 32 := spongeBytes_append _ _ _ _ 0 32 32
    have e' : Spec.Keccak.spongeBytes Spec.Keccak.keccakF 136 6 [] 0 32 =
        Spec.Keccak.spongeBytes Spec.Keccak.keccakF 136 6 [] (0 + 32) 32 := e
    rw [← e', sponge_eval (by simp [IsRate]) _ _ _ (by decide), sponge_eval (by simp [IsRate]) _ _ _ (by decide)] at h2
    exact absurd h2 (by decide +kernel)

/-! ### C06: several objects -/

/-- The calls a program makes on object `j`. -/
def callsOf (j : Nat) : List Act → List Call
  | [] => []
  | .call i k :: as => if i = j then k :: callsOf j as else callsOf j as
  | .clone _ :: as => callsOf j as

/-- The results object `j` returned. -/
def resultsOf (j : Nat) (tr : List (Nat × Result)) : List Result :=
  tr.filterMap fun (i, x) => if i = j then some x else none

/-- C06, independence: whatever a program does with its objects, each object existing at the start
returns exactly what it returns to its own calls alone. -/
theorem c06_independent (P : Plat) (as : List Act) : ∀ (os os' : List Shake) (tr : List (Nat × Result)),
    acts P os as = some (os', tr) → ∀ j o, os[j]? = some o →
      ∃ o', os'[j]? = some o' ∧ scallsModel P o (callsOf j as) = some (o', resultsOf j tr) := by
  induction as with
  | nil =>
    intro os os' tr h j o ho
    simp only [acts, Option.some.injEq, Prod.mk.injEq] at h
    exact ⟨o, by rw [← h.1]; exact ho, by rw [← h.2]; rfl⟩
  | cons a as ih =>
    intro os os' tr h j o ho
    simp only [acts, Option.bind_eq_bind] at h
    cases ha : act P os a with
    | none => rw [ha] at h; simp at h
    | some v =>
      obtain ⟨os1, x⟩ := v
      rw [ha] at h
      simp only [Option.bind_some] at h
      cases hs : acts P os1 as with
      | none => rw [hs] at h; simp at h
      | some w =>
        obtain ⟨os2, tr2⟩ := w
        rw [hs] at h
        simp only [Option.bind_some, Option.some.injEq, Prod.mk.injEq] at h
        obtain ⟨rfl, rfl⟩ := h
        cases a with
        | call i k =>
          simp only [act, Option.bind_eq_bind] at ha
          cases hi : os[i]? with
          | none => rw [hi] at ha; simp at ha
          | some oi =>
            rw [hi] at ha
            simp only [Option.bind_some] at ha
            cases hk : scallModel P oi k with
            | none => rw [hk] at ha; simp at ha
            | some u =>
              obtain ⟨on, r⟩ := u
              rw [hk] at ha
              simp only [Option.bind_some, Option.some.injEq, Prod.mk.injEq] at ha
              obtain ⟨rfl, rfl⟩ := ha
              by_cases hij : i = j
              · subst hij
                rw [hi] at ho
                obtain rfl := Option.some.inj ho
                have hlt : i < os.length := (List.getElem?_eq_some_iff.mp hi).1
                obtain ⟨o', g1, g2⟩ := ih _ _ _ hs i on (by simp [hlt])
                refine ⟨o', g1, ?_⟩
                simp [callsOf, scallsModel, hk, g2, resultsOf]
              · obtain ⟨o', g1, g2⟩ := ih _ _ _ hs j o (by rw [List.getElem?_set_ne hij]; exact ho)
                refine ⟨o', g1, ?_⟩
                simp [callsOf, hij, g2, resultsOf]
        | clone i =>
          simp only [act, Option.bind_eq_bind] at ha
          cases hi : os[i]? with
          | none => rw [hi] at ha; simp at ha
          | some oi =>
            rw [hi] at ha
            simp only [Option.bind_some, Option.some.injEq, Prod.mk.injEq] at ha
            obtain ⟨rfl, rfl⟩ := ha
            have hlt : j < os.length := (List.getElem?_eq_some_iff.mp ho).1
            obtain ⟨o', g1, g2⟩ := ih _ _ _ hs j o (by rw [List.getElem?_append_left hlt]; exact ho)
            exact ⟨o', g1, by simpa [callsOf, resultsOf] using g2⟩

/-- C06.  After `Clone` of object `i`, whatever the program does next: the clone answers its calls as the
original would have done had it received only those calls, and so does the original. -/
theorem c06_clone (P : Plat) (os os' : List Shake) (i : Nat) (o : Shake) (ho : os[i]? = some o)
    (as : List Act) (tr : List (Nat × Result)) (h : acts P os (.clone i :: as) = some (os', tr)) :
    (∃ o', scallsModel P o (callsOf os.length as) = some (o', resultsOf os.length tr)) ∧
    (∃ o', scallsModel P o (callsOf i as) = some (o', resultsOf i tr)) := by
  have hlt : i < os.length := (List.getElem?_eq_some_iff.mp ho).1
  have e : sclone o = o := by cases o <;> rfl
  simp only [acts, act, ho, Option.bind_eq_bind, Option.bind_some, e] at h
  cases hs : acts P (os ++ [o]) as with
  | none => rw [hs] at h; simp at h
  | some w =>
    obtain ⟨os2, tr2⟩ := w
    rw [hs] at h
    simp only [Option.bind_some, Option.some.injEq, Prod.mk.injEq, Option.toList_none, List.nil_append] at h
    obtain ⟨rfl, rfl⟩ := h
    constructor
    · obtain ⟨o', -, g⟩ := c06_independent P as _ _ _ hs os.length o (by simp)
      exact ⟨o', g⟩
    · obtain ⟨o', -, g⟩ := c06_independent P as _ _ _ hs i o (by rw [List.getElem?_append_left hlt]; exact ho)
      exact ⟨o', g⟩

/-- The program only names objects that exist (`n` objects so far). -/
def wellIndexed (n : Nat) : List Act → Prop
  | [] => True
  | .call i _ :: as => i < n ∧ wellIndexed n as
  | .clone i :: as => i < n ∧ wellIndexed (n + 1) as

/-- The hypotheses of `c06_independent` and `c06_clone` are met: no program over objects from the
constructors panics, as long as it names objects that exist. -/
theorem c06_runs {P : Plat} (as : List Act) : ∀ (os : List Shake),
    (∀ o ∈ os, ∀ h, ∃ v, scallsModel P o h = some v) → wellIndexed os.length as →
    ∃ v, acts P os as = some v := by
  induction as with
  | nil => intro os _ _; exact ⟨_, rfl⟩
  | cons a as ih =>
    intro os hos hw
    cases a with
    | call i k =>
      obtain ⟨hi, hw⟩ := hw
      have ho : os[i]? = some os[i] := List.getElem?_eq_getElem hi
      obtain ⟨v, hv⟩ := hos os[i] (List.getElem_mem hi) [k]
      simp only [scallsModel, Option.bind_eq_bind] at hv
      cases hk : scallModel P os[i] k with
      | none => rw [hk] at hv; simp at hv
      | some u =>
        obtain ⟨on, r⟩ := u
        obtain ⟨w, hw'⟩ := ih (os.set i on) (by
          intro o hmem h
          rcases List.mem_or_eq_of_mem_set hmem with hm | rfl
          · exact hos o hm h
          · obtain ⟨z, hz⟩ := hos os[i] (List.getElem_mem hi) (k :: h)
            simp only [scallsModel, hk, Option.bind_eq_bind, Option.bind_some] at hz
            cases hh : scallsModel P o h with
            | none => rw [hh] at hz; simp at hz
            | some z' => exact ⟨z', rfl⟩) (by rw [List.length_set]; exact hw)
        exact ⟨(w.1, (some (i, r)).toList ++ w.2), by simp only [acts, act, ho, hk, hw', Option.bind_eq_bind, Option.bind_some]⟩
    | clone i =>
      obtain ⟨hi, hw⟩ := hw
      have ho : os[i]? = some os[i] := List.getElem?_eq_getElem hi
      have e : sclone os[i] = os[i] := by cases os[i] <;> rfl
      obtain ⟨w, hw'⟩ := ih (os ++ [os[i]]) (by
        intro o hmem h
        rcases List.mem_append.mp hmem with hm | hm
        · exact hos o hm h
        · rw [List.mem_singleton] at hm; rw [hm]; exact hos _ (List.getElem_mem hi) h)
        (by rw [List.length_append]; exact hw)
      exact ⟨(w.1, (none : Option (Nat × Result)).toList ++ w.2), by simp only [acts, act, ho, e, hw', Option.bind_eq_bind, Option.bind_some]⟩

/-- Objects from the plain constructors never panic. -/
theorem c06_plain_alive {P : Plat} (hP : Supported P) (i : Inst) (h : List Call) :
    ∃ v, scallsModel P (.plain (new i)) h = some v := by
  obtain ⟨c, h1, -, -⟩ := history hP i h
  exact ⟨_, by rw [scalls_plain, h1]; rfl⟩

/-- A written-to object is cloned, then both are used. -/
example : ∃ v, acts platGeneric [.plain (new .shake128)]
    [.call 0 (.write [1, 2, 3]), .clone 0, .call 1 (.read [0]), .call 0 (.write [4]), .call 0 (.read [0, 0])] = some v :=
  c06_runs _ _ (by
    intro o ho h
    rw [List.mem_singleton] at ho
    rw [ho]; exact c06_plain_alive .generic .shake128 h) (by simp [wellIndexed])

/-- C07.  The portable and the aliasing block functions agree on the lengths the package uses them
with (block absorb: a block or the whole buffer; block output: a block or the whole buffer). -/
theorem c07_xorIn (a : Vector W64 25) (b : List Byte)
    (h : b.length = 72 ∨ b.length = 104 ∨ b.length = 136 ∨ b.length = 144 ∨ b.length = 168) :
    xorInGeneric a b = xorInUnaligned a b ∧ xorInGeneric a b ≠ none := by
  obtain ⟨a1, h1, h2⟩ := good_generic.xorIn a b h
  obtain ⟨a2, h3, h4⟩ := good_unaligned.xorIn a b h
  have e : a1 = a2 := c02_image_injective (h2.trans h4.symm)
  have h1' : xorInGeneric a b = some a1 := h1
  have h3' : xorInUnaligned a b = some a2 := h3
  rw [h1', h3', e]; exact ⟨rfl, by simp⟩

theorem c07_copyOut (a : Vector W64 25) (b : List Byte)
    (h : b.length = 72 ∨ b.length = 104 ∨ b.length = 136 ∨ b.length = 144 ∨ b.length = 168) :
    copyOutGeneric a b = copyOutUnaligned a b ∧ copyOutGeneric a b ≠ none := by
  have h1 : copyOutGeneric a b = _ := good_generic.copyOut a b h
  have h2 : copyOutUnaligned a b = _ := good_unaligned.copyOut a b h
  rw [h1, h2]; exact ⟨rfl, by simp⟩

/-- Results don't depend on the platform, for any call sequence. -/
theorem c07_results (i : Inst) (h : List Call) :
    (callsModel platGeneric (new i) h).map (·.2) = (callsModel platUnaligned (new i) h).map (·.2) := by
  rw [c01_refines .generic, c01_refines .unaligned]

/-- For other lengths they may differ: on an 8-byte block the aliasing version does nothing. -/
example : xorInGeneric (Vector.replicate 25 0) [1, 1, 1, 1, 1, 1, 1, 1] ≠
    xorInUnaligned (Vector.replicate 25 0) [1, 1, 1, 1, 1, 1, 1, 1] := by decide +kernel

/-! ### cSHAKE -/

/-- The full statement of C08 for cSHAKE128. -/
def C08Full128 (P : Plat) : Prop :=
  ∀ (N S : List Byte), N.length < 2 ^ 61 → S.length < 2 ^ 61 → ∀ (ws bufs : List (List Byte)),
    ∃ (o c : Shake) (outs : List (List Byte)), newCShake128 P N S = some o ∧
      scallsModel P o (ws.map .write ++ bufs.map .read) =
        some (c, (ws.map fun w => .wrote w.length false) ++ outs.map fun b => .read b b.length) ∧
      outs.map List.length = bufs.map List.length ∧
      outs.flatten = Spec.CShake.cshake128 N S ws.flatten bufs.flatten.length

/-- The length of the encoded prefix before zero padding. -/
def prefixLen (N S : List Byte) (rate : Nat) : Nat :=
  (Spec.CShake.leftEncode rate ++ (Spec.CShake.encodeString N ++ Spec.CShake.encodeString S)).length

theorem codePrefix_spec {N S : List Byte} {r : Nat} (hr : 0 < r) (h : prefixLen N S r % r ≠ 0) :
    codePrefix N S r = Spec.CShake.bytepad (Spec.CShake.encodeString N ++ Spec.CShake.encodeString S) r := by
  rw [codePrefix, Spec.CShake.bytepad]
  have : (r - prefixLen N S r % r) % r = r - prefixLen N S r % r := Nat.mod_eq_of_lt (by omega)
  rw [prefixLen] at this
  simp only [this]

/-- C08 for cSHAKE128, all N and S whose encoded prefix is not a whole number of blocks.  Missing: the
remaining N, S, for which it is false (`c08_full128_false`). -/
theorem c08_cshake128_partial {P : Plat} (hP : Supported P) (N S : List Byte) (hN : N.length < 2 ^ 61)
    (hS : S.length < 2 ^ 61) (hp : (N = [] ∧ S = []) ∨ prefixLen N S 168 % 168 ≠ 0) (ws bufs : List (List Byte)) :
    ∃ (o c : Shake) (outs : List (List Byte)), newCShake128 P N S = some o ∧
      scallsModel P o (ws.map .write ++ bufs.map .read) =
        some (c, (ws.map fun w => .wrote w.length false) ++ outs.map fun b => .read b b.length) ∧
      outs.map List.length = bufs.map List.length ∧
      outs.flatten = Spec.CShake.cshake128 N S ws.flatten bufs.flatten.length := by
  by_cases he : N = [] ∧ S = []
  · obtain ⟨rfl, rfl⟩ := he
    obtain ⟨c, outs, h1, h2, h3⟩ := c01_stream hP .shake128 ws bufs
    refine ⟨.plain (new .shake128), .plain c, outs, rfl, ?_, h2, ?_⟩
    · rw [scalls_plain, h1]; rfl
    · rw [h3, Spec.CShake.cshake128, if_pos ⟨rfl, rfl⟩]; rfl
  · obtain ⟨c, h1, c', outs, h2, h3, h4⟩ := custom_stream hP.good hN hS 0x04 (id := 4) (by simp [sha3Desc, IsRate]) ws bufs
    refine ⟨.custom c, c', outs, ?_, h2, h3, ?_⟩
    · rw [newCShake128, if_neg (by simpa using he), h1]; rfl
    · rw [h4, Spec.CShake.cshake128, if_neg he, show (sha3Desc 4).1 = 168 from rfl, codePrefix_spec (by decide) (hp.resolve_left he)]

theorem c08_cshake256_partial {P : Plat} (hP : Supported P) (N S : List Byte) (hN : N.length < 2 ^ 61)
    (hS : S.length < 2 ^ 61) (hp : (N = [] ∧ S = []) ∨ prefixLen N S 136 % 136 ≠ 0) (ws bufs : List (List Byte)) :
    ∃ (o c : Shake) (outs : List (List Byte)), newCShake256 P N S = some o ∧
      scallsModel P o (ws.map .write ++ bufs.map .read) =
        some (c, (ws.map fun w => .wrote w.length false) ++ outs.map fun b => .read b b.length) ∧
      outs.map List.length = bufs.map List.length ∧
      outs.flatten = Spec.CShake.cshake256 N S ws.flatten bufs.flatten.length := by
  by_cases he : N = [] ∧ S = []
  · obtain ⟨rfl, rfl⟩ := he
    obtain ⟨c, outs, h1, h2, h3⟩ := c01_stream hP .shake256 ws bufs
    refine ⟨.plain (new .shake256), .plain c, outs, rfl, ?_, h2, ?_⟩
    · rw [scalls_plain, h1]; rfl
    · rw [h3, Spec.CShake.cshake256, if_pos ⟨rfl, rfl⟩]; rfl
  · obtain ⟨c, h1, c', outs, h2, h3, h4⟩ := custom_stream hP.good hN hS 0x04 (id := 5) (by simp [sha3Desc, IsRate]) ws bufs
    refine ⟨.custom c, c', outs, ?_, h2, h3, ?_⟩
    · rw [newCShake256, if_neg (by simpa using he), h1]; rfl
    · rw [h4, Spec.CShake.cshake256, if_neg he, show (sha3Desc 5).1 = 136 from rfl, codePrefix_spec (by decide) (hp.resolve_left he)]

/-- N = "Email Signature" style short names meet the hypothesis. -/
example : prefixLen [] [0x45, 0x6d] 168 % 168 ≠ 0 := by decide +kernel

/-- What the code computes for every N, S: one more block of zeros is absorbed when the encoded
prefix is a whole number of blocks. -/
theorem c08_code {P : Plat} (hP : Supported P) (N S : List Byte) (hN : N.length < 2 ^ 61)
    (hS : S.length < 2 ^ 61) (he : ¬ (N = [] ∧ S = [])) (hp : prefixLen N S 168 % 168 = 0) (ws bufs : List (List Byte)) :
    ∃ (o c : Shake) (outs : List (List Byte)), newCShake128 P N S = some o ∧
      scallsModel P o (ws.map .write ++ bufs.map .read) =
        some (c, (ws.map fun w => .wrote w.length false) ++ outs.map fun b => .read b b.length) ∧
      outs.flatten = Spec.Keccak.spongeBytes Spec.Keccak.keccakF 168 0x04
        (Spec.CShake.bytepad (Spec.CShake.encodeString N ++ Spec.CShake.encodeString S) 168 ++
          List.replicate 168 0 ++ ws.flatten) 0 bufs.flatten.length := by
  obtain ⟨c, h1, c', outs, h2, h3, h4⟩ := custom_stream hP.good hN hS 0x04 (id := 4) (by simp [sha3Desc, IsRate]) ws bufs
  refine ⟨.custom c, c', outs, ?_, h2, ?_⟩
  · rw [newCShake128, if_neg (by simpa using he), h1]; rfl
  · rw [h4, show (sha3Desc 4).1 = 168 from rfl]
    have : codePrefix N S 168 = Spec.CShake.bytepad (Spec.CShake.encodeString N ++ Spec.CShake.encodeString S) 168 ++
          List.replicate 168 0 := by
      rw [codePrefix, Spec.CShake.bytepad]
      rw [prefixLen] at hp
      simp only [hp, Nat.sub_zero, Nat.mod_self, List.replicate_zero, List.append_nil]
    rw [this]

/-- C08 as stated is false: N empty, S of 161 zero bytes, nothing written, one byte read. -/
theorem c08_full128_false {P : Plat} (hP : Supported P) : ¬ C08Full128 P := by
  intro hf
  have hlen : (List.replicate 161 (0 : Byte)).length = 161 := List.length_replicate
  obtain ⟨o, c, outs, h1, h2, h3, h4⟩ := hf [] (List.replicate 161 0) (by decide) (by rw [hlen]; decide) [] [[0, 0, 0, 0]]
  have hne : ¬ (([] : List Byte) = [] ∧ List.replicate 161 (0 : Byte) = []) := by decide +kernel
  obtain ⟨o', c', outs', g1, g2, g3⟩ := c08_code hP [] (List.replicate 161 0) (by decide) (by rw [hlen]; decide)
    hne (by decide +kernel) [] [[0, 0, 0, 0]]
  rw [h1] at g1
  obtain rfl := Option.some.inj g1
  rw [h2] at g2
  simp only [List.map_nil, List.nil_append, Option.some.injEq, Prod.mk.injEq] at g2
  have e : outs = outs' := by
    have g := congrArg (List.map fun x => match x with | Result.read b _ => b | _ => []) g2.2
    rw [List.map_map, List.map_map] at g
    have hid : ((fun x => match x with | Result.read b _ => b | _ => []) ∘ fun b : List Byte => Result.read b b.length) = id := by
      funext b; rfl
    rwa [hid, List.map_id, List.map_id] at g
  rw [← e, h4, Spec.CShake.cshake128, if_neg hne, show ([[0, 0, 0, 0]] : List (List Byte)).flatten.length = 4 from rfl,
    sponge_eval (by simp [IsRate]) _ _ _ (by decide), sponge_eval (by simp [IsRate]) _ _ _ (by decide)] at g3
  exact absurd g3 (by decide +kernel)

/-- C09.  No absorbed prefix is an initial part of another: objects made with different (N, S)
absorb different strings whatever is written to them. -/
theorem c09_separation {P : Plat} (hP : Supported P) {N S N' S' : List Byte} (hN : N.length < 2 ^ 61)
    (hS : S.length < 2 ^ 61) (hN' : N'.length < 2 ^ 61) (hS' : S'.length < 2 ^ 61) (id : Nat) (hid : id = 4 ∨ id = 5)
    {c c' : CState} (h : newCShake P N S 0x04 id = some c) (h' : newCShake P N' S' 0x04 id = some c')
    (x x' : List Byte) (he : c.initBlock ++ x = c'.initBlock ++ x') : N = N' ∧ S = S' ∧ x = x' := by
  have hr : IsRate (sha3Desc id).1 := by rcases hid with rfl | rfl <;> simp [sha3Desc, IsRate]
  obtain ⟨d, g1, g2, -⟩ := newCShake_spec hP.good hN hS 0x04 hr
  obtain ⟨d', g1', g2', -⟩ := newCShake_spec hP.good hN' hS' 0x04 hr
  rw [h] at g1; rw [h'] at g1'
  obtain rfl := Option.some.inj g1
  obtain rfl := Option.some.inj g1'
  rw [g2, g2'] at he
  exact codePrefix_inj hN hS hN' hS' he

/-- The output of a customised object is the sponge of `initBlock` and the message, so
`c09_separation` is about what is hashed. -/
theorem c09_output {P : Plat} (hP : Supported P) {N S : List Byte} (hN : N.length < 2 ^ 61)
    (hS : S.length < 2 ^ 61) (id : Nat) (hid : id = 4 ∨ id = 5) (ws bufs : List (List Byte)) :
    ∃ c, newCShake P N S 0x04 id = some c ∧ ∃ (c' : Shake) (outs : List (List Byte)),
      scallsModel P (.custom c) (ws.map .write ++ bufs.map .read) =
        some (c', (ws.map fun w => .wrote w.length false) ++ outs.map fun b => .read b b.length) ∧
      outs.flatten = Spec.Keccak.spongeBytes Spec.Keccak.keccakF (if id = 4 then 168 else 136) 0x04
        (c.initBlock ++ ws.flatten) 0 bufs.flatten.length := by
  have hr : IsRate (sha3Desc id).1 := by rcases hid with rfl | rfl <;> simp [sha3Desc, IsRate]
  obtain ⟨c, h1, c', outs, h2, h3, h4⟩ := custom_stream hP.good hN hS 0x04 hr ws bufs
  obtain ⟨d, g1, g2, -⟩ := newCShake_spec hP.good hN hS 0x04 hr
  rw [h1] at g1
  obtain rfl := Option.some.inj g1
  refine ⟨c, h1, c', outs, h2, ?_⟩
  rw [h4, ← g2]
  rcases hid with rfl | rfl <;> rfl

/-- The padded strings given to the permutation differ too, also between the SHA3, SHAKE and cSHAKE
families at the same rate. -/
theorem c09_padding {r : Nat} (hr : 0 < r) {s s' : Byte} (hs : s = 0x06 ∨ s = 0x1f ∨ s = 0x04)
    (hs' : s' = 0x06 ∨ s' = 0x1f ∨ s' = 0x04) {m m' : List Byte}
    (h : Spec.Keccak.pad r s m = Spec.Keccak.pad r s' m') : s = s' ∧ m = m' := by
  refine pad_inj hr ?_ ?_ ?_ ?_ h
  · rcases hs with rfl | rfl | rfl <;> decide
  · rcases hs' with rfl | rfl | rfl <;> decide
  · rcases hs with rfl | rfl | rfl <;> decide
  · rcases hs' with rfl | rfl | rfl <;> decide

/-- C10.  Without names the customised constructors return plain SHAKE objects. -/
theorem c10_no_names (P : Plat) (h : List Call) :
    (∃ o, newCShake128 P [] [] = some o ∧
      (scallsModel P o h).map (·.2) = (callsModel P (new .shake128) h).map (·.2)) ∧
    (∃ o, newCShake256 P [] [] = some o ∧
      (scallsModel P o h).map (·.2) = (callsModel P (new .shake256) h).map (·.2)) := by
  refine ⟨⟨.plain (new .shake128), rfl, ?_⟩, ⟨.plain (new .shake256), rfl, ?_⟩⟩ <;>
  · rw [scalls_plain, Option.map_map]; rfl

/-- C11.  The one-shot functions fill the buffer with the first bytes of SHAKE. -/
theorem c11_shakeSum {P : Plat} (hP : Supported P) (hash data : List Byte) :
    shakeSum128 P hash data = some (Spec.Keccak.shake128 data hash.length) ∧
    shakeSum256 P hash data = some (Spec.Keccak.shake256 data hash.length) := by
  constructor
  · obtain ⟨c, a1, a2, a3⟩ := write_spec hP.good (new_absorbed .shake128) data
    obtain ⟨c2, b1, -, -⟩ := read_absorbed hP.good a2 hash
    have a1' : write P newShake128 data = _ := a1
    rw [shakeSum128, a1', Option.bind_eq_bind, Option.bind_some]
    simp only [b1, Option.bind_eq_bind, Option.bind_some, List.nil_append, a3.1, a3.2.2]; rfl
  · obtain ⟨c, a1, a2, a3⟩ := write_spec hP.good (new_absorbed .shake256) data
    obtain ⟨c2, b1, -, -⟩ := read_absorbed hP.good a2 hash
    have a1' : write P newShake256 data = _ := a1
    rw [shakeSum256, a1', Option.bind_eq_bind, Option.bind_some]
    simp only [b1, Option.bind_eq_bind, Option.bind_some, List.nil_append, a3.1, a3.2.2]; rfl

/-- C12.  `leftEncode` is left_encode of SP 800-185 on every 64-bit value. -/
theorem c12_leftEncode (v : W64) : leftEncode v = Spec.CShake.leftEncode v.toNat := leftEncode_eq v

/-- The length byte is the least positive `n` with `x < 256^n`. -/
theorem c12_minimal (x : Nat) :
    1 ≤ Spec.CShake.byteLen x ∧ x < 256 ^ Spec.CShake.byteLen x ∧
    ∀ n, 1 ≤ n → x < 256 ^ n → Spec.CShake.byteLen x ≤ n := by
  refine ⟨(byteLen_bounds x).1, (byteLen_bounds x).2, ?_⟩
  intro n hn
  obtain ⟨k, rfl⟩ : ∃ k, n = k + 1 := ⟨n - 1, by omega⟩
  clear hn
  induction k generalizing x with
  | zero => intro hx; rw [Spec.CShake.byteLen, dif_pos (by simpa using hx)]; omega
  | succ k ih =>
    intro hx
    rw [Spec.CShake.byteLen]
    split
    · omega
    · have := ih (x / 256) (by rw [Nat.div_lt_iff_lt_mul (by decide)]; rw [Nat.pow_succ] at hx; exact hx)
      omega

example : leftEncode 0 = [1, 0] := by decide
example : leftEncode 0xffffffffffffffff = 8 :: List.replicate 8 0xff := by decide
example : leftEncode 1344 = [2, 5, 0x40] := by decide

/-- C13.  Reading in two pieces or one makes no difference, now or later; the buffer is always filled. -/
theorem c13_read_split {P : Plat} (hP : Supported P) (i : Inst) (h k : List Call) (a b : List Byte) :
    ∃ c xs o1 o2 ys,
      callsModel P (new i) h = some (c, xs) ∧
      (callsModel P c (.read a :: .read b :: k)).map (·.2) = some (.read o1 a.length :: .read o2 b.length :: ys) ∧
      (callsModel P c (.read (a ++ b) :: k)).map (·.2) = some (.read (o1 ++ o2) (a.length + b.length) :: ys) ∧
      o1.length = a.length ∧ o2.length = b.length := by
  obtain ⟨c, h1, h2, h3⟩ := history hP i h
  obtain ⟨c2, h4, -, -⟩ := calls_sim hP.good (.read a :: .read b :: k) h2
  obtain ⟨c3, h5, -, -⟩ := calls_sim hP.good (.read (a ++ b) :: k) h2
  simp only [calls, call, Obj.pos, List.length_append, spongeBytes_append] at h4 h5
  rw [← Nat.add_assoc] at h5
  exact ⟨c, _, _, _, _, h1, by rw [h4]; rfl, by rw [h5]; rfl, spongeBytes_length .., spongeBytes_length ..⟩

end Props.Sha3
