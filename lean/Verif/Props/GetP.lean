import Verif.Props.Libxc
import Verif.Lib.NameCode
import Verif.Lib.Congr
/-!
# C29: the record `p` mirrors libxc's struct
-/
namespace Verif.Props
open Verif.Py Verif.Model Verif.Spec Verif.Lib

/-- The record `i` has the values of the struct `c`. -/
structure SameFields (W : WorkMap) (R : ParamMap) (c : CFields) (i : PInfo) : Prop where
  name : i.name = c.info.name
  nspin : i.nspin = c.nspin
  dens : i.vals.fld .densThreshold = c.densThreshold
  zeta : i.vals.fld .zetaThreshold = c.zetaThreshold
  omega : i.vals.fld .camOmega = c.camOmega
  alpha : i.vals.fld .camAlpha = c.camAlpha
  beta : i.vals.fld .camBeta = c.camBeta
  nlcB : i.nlcB = c.nlcB
  nlcC : i.nlcC = c.nlcC
  /-- the formula is the one of C30 -/
  maple : getMapleName W c = .ok i.mapleName
  /-- the family is the one of C27 -/
  type : nameToType c.info.name = .ok i.type
  /-- a scalar parameter (`lambda` is called `lambda_` in formulas) -/
  scalar : ∀ fields k x, R c.info.init = some fields → k ∈ fields → c.params k = ⟨[], [x]⟩ → i.vals.param (nameCode (ren k)) = x
  /-- an entry of an array parameter -/
  entry : ∀ fields k N data j x, R c.info.init = some fields → k ∈ fields → c.params k = ⟨[N], data⟩ → data[j]? = some x →
    i.vals.param (nameCode (elemText (ren k) j)) = x

/-- The record tree has the values of the struct and of its components, in order, with one coefficient for each component. -/
inductive Mirrors (W : WorkMap) (R : ParamMap) : CFunc → PTree → Prop
  | mk (c : CFields) (aux : List CFunc) (i : PInfo) (ts : List PTree) (fields : SameFields W R c i) (coef : i.mixCoef = (List.range aux.length).map c.mixCoef)
      (len : ts.length = aux.length) (comp : ∀ (n : ℕ) a t, aux[n]? = some a → ts[n]? = some t → Mirrors W R a t) : Mirrors W R (.mk c aux) (.node i ts)

/-- The registered parameter structs have distinct members, and not both `lambda` and `lambda_`. -/
def ProperParams (R : ParamMap) : Prop := ∀ k fields, R k = some fields → fields.Nodup ∧ ("lambda" ∈ fields → "lambda_" ∉ fields)

/-! ### Parameters -/

theorem lookup_unique {α : Type} (k : ℕ) (v : α) : ∀ l : List (ℕ × α), (k, v) ∈ l → (∀ w, (k, w) ∈ l → w = v) → l.lookup k = some v
  | (k', v') :: l, h, hu => by
    rw [List.lookup_cons]
    by_cases e : k = k'
    · subst e
      rw [beq_self_eq_true, hu v' List.mem_cons_self]
    · rw [beq_eq_false_iff_ne.2 e]
      refine lookup_unique k v l ?_ fun w hw => hu w (List.mem_cons_of_mem _ hw)
      rcases List.mem_cons.1 h with h | h
      · cases h; exact absurd rfl e
      · exact h

/-- The pairs of a parameter record. -/
theorem mem_entries (k : String) (a : Arr) (code : ℕ) (x : ℝ) (h : (code, x) ∈ paramEntries k a) :
    (a.shape = [] ∧ code = nameCode k ∧ a.data[0]? = some x) ∨ (a.shape ≠ [] ∧ ∃ j, code = nameCode (elemText k j) ∧ a.data[j]? = some x) := by
  unfold paramEntries at h
  split at h
  · rename_i e
    left
    obtain ⟨y, hy, e2⟩ := List.mem_map.1 h
    cases e2
    refine ⟨e, rfl, ?_⟩
    cases hd : a.data with
    | nil => rw [hd] at hy; simp at hy
    | cons b l => rw [hd] at hy; simp at hy; simp [hy]
  · rename_i e
    right
    obtain ⟨⟨y, j⟩, hy, e2⟩ := List.mem_map.1 h
    cases e2
    refine ⟨fun e' => e e', j, rfl, ?_⟩
    exact List.mem_zipIdx_iff_getElem?.1 hy

section
variable {fs : List (String × NT)} (hn : (fs.map Prod.fst).Nodup) (hk : ∀ k ∈ fs.map Prod.fst, isIdentifier k = true)
include hn hk

theorem byte_of_key {k : String} (h : k ∈ fs.map Prod.fst) : ByteChars k.toList := fun c hc =>
  ⟨(identifier_chars k (hk k h) c hc).1, (identifier_chars k (hk k h) c hc).2.1⟩

theorem mem_all (code : ℕ) (x : ℝ) (h : (code, x) ∈ fs.flatMap fun x => match x.2 with
    | .arr a => paramEntries x.1 a
    | _ => []) : ∃ k a, (k, NT.arr a) ∈ fs ∧ (code, x) ∈ paramEntries k a := by
  obtain ⟨⟨k, v⟩, h1, h2⟩ := List.mem_flatMap.1 h
  cases v with
  | arr a => exact ⟨k, a, h1, h2⟩
  | _ => simp at h2

theorem paramValue_unique (code : ℕ) (v : ℝ) (k : String) (a : Arr) (hm : (k, NT.arr a) ∈ fs) (he : (code, v) ∈ paramEntries k a)
    (hu : ∀ k' a' w, (k', NT.arr a') ∈ fs → (code, w) ∈ paramEntries k' a' → w = v) : paramValue fs code = v := by
  unfold paramValue
  rw [lookup_unique code v]
  · rfl
  · exact List.mem_flatMap.2 ⟨(k, .arr a), hm, he⟩
  · intro w hw
    obtain ⟨k', a', h1, h2⟩ := mem_all hn hk code w hw
    exact hu k' a' w h1 h2

theorem paramValue_scalar (k : String) (x : ℝ) (hm : (k, NT.arr ⟨[], [x]⟩) ∈ fs) : paramValue fs (nameCode k) = x := by
  have mk : ∀ {k a}, (k, NT.arr a) ∈ fs → k ∈ fs.map Prod.fst := fun h => List.mem_map.2 ⟨_, h, rfl⟩
  refine paramValue_unique hn hk _ _ k _ hm (by simp [paramEntries]) ?_
  intro k' a' w h1 h2
  rcases mem_entries k' a' _ w h2 with ⟨h3, h4, h5⟩ | ⟨h3, j, h4, h5⟩
  · have e := nameCode_inj _ _ (byte_of_key hn hk (mk hm)) (byte_of_key hn hk (mk h1)) h4
    subst e
    have := lookup_nodup _ _ _ hn h1
    rw [lookup_nodup _ _ _ hn hm] at this
    cases this
    simpa using h5.symm
  · have e := nameCode_inj _ _ (byte_of_key hn hk (mk hm)) (elemText_bytes k' j (hk k' (mk h1))) h4
    exact absurd e.symm (elemText_ne k' k j (hk k (mk hm)))

theorem paramValue_entry (k : String) (N : ℕ) (data : List ℝ) (j : ℕ) (x : ℝ) (hm : (k, NT.arr ⟨[N], data⟩) ∈ fs) (hj : data[j]? = some x) :
    paramValue fs (nameCode (elemText k j)) = x := by
  have mk : ∀ {k a}, (k, NT.arr a) ∈ fs → k ∈ fs.map Prod.fst := fun h => List.mem_map.2 ⟨_, h, rfl⟩
  refine paramValue_unique hn hk _ _ k _ hm ?_ ?_
  · unfold paramEntries
    simp only
    exact List.mem_map.2 ⟨(x, j), List.mem_zipIdx_iff_getElem?.2 hj, rfl⟩
  intro k' a' w h1 h2
  rcases mem_entries k' a' _ w h2 with ⟨h3, h4, h5⟩ | ⟨h3, j', h4, h5⟩
  · have e := nameCode_inj _ _ (elemText_bytes k j (hk k (mk hm))) (byte_of_key hn hk (mk h1)) h4
    exact absurd e (elemText_ne k k' j (hk k' (mk h1)))
  · have e := nameCode_inj _ _ (elemText_bytes k j (hk k (mk hm))) (elemText_bytes k' j' (hk k' (mk h1))) h4
    obtain ⟨rfl, rfl⟩ := elemText_inj k k' j j' (hk k (mk hm)) (hk k' (mk h1)) e
    have := lookup_nodup _ _ _ hn h1
    rw [lookup_nodup _ _ _ hn hm] at this
    cases this
    simp only [hj, Option.some.injEq] at h5
    exact h5.symm
end

/-! ### The dict and the namedtuple -/

/-- The entries of `getPBase`, given the formula and the type. -/
def baseDict (R : ParamMap) (c : CFields) (maple type : String) : List (String × PyVal) :=
  [("name", .str c.info.name), ("cam_omega", .num c.camOmega), ("cam_alpha", .num c.camAlpha), ("cam_beta", .num c.camBeta),
    ("nlc_b", .num c.nlcB), ("nlc_C", .num c.nlcC), ("dens_threshold", .num c.densThreshold), ("zeta_threshold", .num c.zetaThreshold),
    ("sigma_threshold", .num c.sigmaThreshold), ("tau_threshold", .num c.tauThreshold), ("params", .dict (getParams R c)),
    ("maple_name", .str maple), ("type", .str type), ("nspin", .int c.nspin)]

/-- The same after the conversion. -/
def baseFields (c : CFields) (maple type : String) (params : NT) : List (String × NT) :=
  [("name", .str c.info.name), ("cam_omega", .num c.camOmega), ("cam_alpha", .num c.camAlpha), ("cam_beta", .num c.camBeta),
    ("nlc_b", .num c.nlcB), ("nlc_C", .num c.nlcC), ("dens_threshold", .num c.densThreshold), ("zeta_threshold", .num c.zetaThreshold),
    ("sigma_threshold", .num c.sigmaThreshold), ("tau_threshold", .num c.tauThreshold), ("params", params),
    ("maple_name", .str maple), ("type", .str type), ("nspin", .int c.nspin)]

theorem getPBase_ok (W : WorkMap) (R : ParamMap) (c : CFields) (d : List (String × PyVal)) (h : getPBase W R c = .ok d) :
    ∃ maple type, getMapleName W c = .ok maple ∧ nameToType c.info.name = .ok type ∧ d = baseDict R c maple type := by
  unfold getPBase at h
  cases h1 : getMapleName W c with
  | error e => rw [h1] at h; cases h
  | ok maple =>
    cases h2 : nameToType c.info.name with
    | error e => rw [h1, h2] at h; cases h
    | ok type =>
      rw [h1, h2] at h
      cases h
      exact ⟨maple, type, rfl, rfl, rfl⟩

theorem seqFields_append (l m : List (String × Except PyErr NT)) :
    seqFields (l ++ m) = (seqFields l).bind fun a => (seqFields m).bind fun b => .ok (a ++ b) := by
  induction l with
  | nil => simp only [List.nil_append, seqFields, Except.bind]; cases seqFields m <;> rfl
  | cons x l ih =>
    obtain ⟨k, x⟩ := x
    cases x with
    | error e => rfl
    | ok x =>
      simp only [List.cons_append, seqFields, bind, Except.bind, ih]
      cases seqFields l with
      | error e => rfl
      | ok a => cases seqFields m <;> rfl

theorem popLambda_none {α : Type} (d : List (String × α)) (h : "lambda" ∉ d.map Prod.fst) : popLambda d = d := by
  unfold popLambda
  cases e : d.lookup "lambda" with
  | none => rfl
  | some v => exact absurd (List.mem_map.2 ⟨_, lookup_mem _ _ _ e, rfl⟩) h

/-- The conversion of a dict without the key `lambda`. -/
theorem convVal_plain (k : String) (d : List (String × PyVal)) (h : "lambda" ∉ d.map Prod.fst) :
    convVal k (.dict d) = (seqFields (d.map fun x => (x.1, convVal x.1 x.2))).bind (namedtuple k) := by
  rw [convVal_dict, popLambda_none _ (by rw [map_keys]; exact h)]
  congr 2
  refine List.map_congr_left fun x hx => ?_
  have : ren x.1 = x.1 := by
    unfold ren
    rw [if_neg]
    intro e
    exact h (List.mem_map.2 ⟨x, hx, e⟩)
  rw [this]

theorem seq_base (R : ParamMap) (c : CFields) (maple type : String) :
    seqFields ((baseDict R c maple type).map fun x => (x.1, convVal x.1 x.2)) =
      (convVal "params" (.dict (getParams R c))).bind fun p => .ok (baseFields c maple type p) := by
  have h1 : ∀ k s, convVal k (.str s) = .ok (.str s) := fun _ _ => by rw [convVal]
  have h2 : ∀ k s, convVal k (.num s) = .ok (.num s) := fun _ _ => by rw [convVal]
  have h3 : ∀ k s, convVal k (.int s) = .ok (.int s) := fun _ _ => by rw [convVal]
  simp only [baseDict, List.map_cons, List.map_nil, seqFields, bind, Except.bind, h1, h2, h3]
  cases convVal "params" (.dict (getParams R c)) <;> rfl

theorem namedtuple_ok {k : String} {fs : List (String × NT)} {t : NT} (h : namedtuple k fs = .ok t) :
    t = .tup k fs ∧ (∀ k ∈ fs.map Prod.fst, fieldOK k = true) ∧ (fs.map Prod.fst).Nodup := by
  unfold namedtuple at h
  split at h
  · rename_i e
    cases h
    exact ⟨rfl, e.2.1, e.2.2⟩
  · cases h

theorem isIdentifier_of_field (k : String) (h : fieldOK k = true) : isIdentifier k = true := by
  have := typeOK_of_field k h
  unfold typeOK at this
  exact (Bool.and_eq_true_iff.1 this).1

/-- The members of the parameter struct in the converted record. -/
theorem params_conv {R : ParamMap} (hR : ProperParams R) (c : CFields) (t : NT) (h : convVal "params" (.dict (getParams R c)) = .ok t) :
    ∃ fs, t = .tup "params" fs ∧ (fs.map Prod.fst).Nodup ∧ (∀ k ∈ fs.map Prod.fst, isIdentifier k = true) ∧
      ∀ fields k, R c.info.init = some fields → k ∈ fields → (ren k, NT.arr (c.params k)) ∈ fs := by
  have hk : ∀ fields, R c.info.init = some fields → (getParams R c).map Prod.fst = fields := by
    intro fields e
    unfold getParams
    rw [e]
    simp only [List.map_map]
    exact List.map_id fields
  have hp : Proper (.dict (getParams R c)) := by
    cases e : R c.info.init with
    | none =>
      have : getParams R c = [] := by unfold getParams; rw [e]
      rw [this]
      exact .dict [] (by simp) (by simp) (by simp)
    | some fields =>
      refine .dict _ (by rw [hk _ e]; exact (hR _ _ e).1) (by rw [hk _ e]; exact (hR _ _ e).2) ?_
      unfold getParams
      rw [e]
      intro x hx
      obtain ⟨k, _, rfl⟩ := List.mem_map.1 hx
      exact .arr _
  have hkeep := conv_keeps _ hp _ _ h
  rw [convVal_dict] at h
  cases hs : seqFields (popLambda ((getParams R c).map fun x => (x.1, convVal (ren x.1) x.2))) with
  | error e => rw [hs] at h; cases h
  | ok fs =>
    rw [hs] at h
    obtain ⟨rfl, h1, h2⟩ := namedtuple_ok (h : namedtuple "params" fs = .ok t)
    refine ⟨fs, rfl, h2, fun k hk => isIdentifier_of_field k (h1 k hk), ?_⟩
    intro fields k e hm
    cases hkeep with
    | dict _ _ _ _ _ hs' h' =>
      have hmem : (k, PyVal.arr (c.params k)) ∈ getParams R c := by
        unfold getParams
        rw [e]
        exact List.mem_map.2 ⟨k, hm, rfl⟩
      have h3 := hs' _ _ hmem
      obtain ⟨w, hw⟩ := Option.isSome_iff_exists.1 h3
      have h4 := h' _ _ w hmem hw
      cases h4
      exact lookup_mem _ _ _ hw

/-- The attributes of the converted record. -/
theorem read_base {W : WorkMap} {R : ParamMap} (hR : ProperParams R) (c : CFields) (maple type : String) (hm : getMapleName W c = .ok maple)
    (ht : nameToType c.info.name = .ok type) (p : NT) (hp : convVal "params" (.dict (getParams R c)) = .ok p) (k : String) (extra : List (String × NT))
    (mix : List ℝ) (hmix : (match extra.lookup "mix_coef" with
      | some (.arr a) => a.data
      | _ => []) = mix) :
    ∃ i, readInfo (.tup k (baseFields c maple type p ++ extra)) = some i ∧ SameFields W R c i ∧ i.mixCoef = mix := by
  obtain ⟨fs, rfl, h1, h2, h3⟩ := params_conv hR c p hp
  have e : (baseFields c maple type (NT.tup "params" fs) ++ extra).lookup "mix_coef" = extra.lookup "mix_coef" := by
    simp [baseFields, List.lookup]
  have k0 : (baseFields c maple type (NT.tup "params" fs) ++ extra).lookup "name" = some (NT.str c.info.name) := by simp [baseFields, List.lookup]
  have k1 : (baseFields c maple type (NT.tup "params" fs) ++ extra).lookup "maple_name" = some (NT.str maple) := by simp [baseFields, List.lookup]
  have k2 : (baseFields c maple type (NT.tup "params" fs) ++ extra).lookup "type" = some (NT.str type) := by simp [baseFields, List.lookup]
  have k3 : (baseFields c maple type (NT.tup "params" fs) ++ extra).lookup "nspin" = some (NT.int c.nspin) := by simp [baseFields, List.lookup]
  have k4 : (baseFields c maple type (NT.tup "params" fs) ++ extra).lookup "cam_omega" = some (NT.num c.camOmega) := by simp [baseFields, List.lookup]
  have k5 : (baseFields c maple type (NT.tup "params" fs) ++ extra).lookup "cam_alpha" = some (NT.num c.camAlpha) := by simp [baseFields, List.lookup]
  have k6 : (baseFields c maple type (NT.tup "params" fs) ++ extra).lookup "cam_beta" = some (NT.num c.camBeta) := by simp [baseFields, List.lookup]
  have k7 : (baseFields c maple type (NT.tup "params" fs) ++ extra).lookup "nlc_b" = some (NT.num c.nlcB) := by simp [baseFields, List.lookup]
  have k8 : (baseFields c maple type (NT.tup "params" fs) ++ extra).lookup "nlc_C" = some (NT.num c.nlcC) := by simp [baseFields, List.lookup]
  have k9 : (baseFields c maple type (NT.tup "params" fs) ++ extra).lookup "dens_threshold" = some (NT.num c.densThreshold) := by simp [baseFields, List.lookup]
  have k10 : (baseFields c maple type (NT.tup "params" fs) ++ extra).lookup "zeta_threshold" = some (NT.num c.zetaThreshold) := by simp [baseFields, List.lookup]
  have k11 : (baseFields c maple type (NT.tup "params" fs) ++ extra).lookup "params" = some (NT.tup "params" fs) := by simp [baseFields, List.lookup]
  refine ⟨{ name := c.info.name, mapleName := maple, type := type, nspin := c.nspin, nlcB := c.nlcB, nlcC := c.nlcC, mixCoef := mix,
            vals := { fld := fun
                        | .zetaThreshold => c.zetaThreshold
                        | .densThreshold => c.densThreshold
                        | .camOmega => c.camOmega
                        | .camAlpha => c.camAlpha
                        | .camBeta => c.camBeta
                      param := paramValue fs } }, ?_, ?_, rfl⟩
  · unfold readInfo
    simp only [NT.attr, e, k0, k1, k2, k3, k4, k5, k6, k7, k8, k9, k10, k11, bind, Option.bind]
    rw [← hmix]
    rfl
  · constructor
    · rfl
    · rfl
    · rfl
    · rfl
    · rfl
    · rfl
    · rfl
    · rfl
    · rfl
    · exact hm
    · exact ht
    · intro fields k x e hk hx
      have := h3 fields k e hk
      rw [hx] at this
      exact paramValue_scalar h1 h2 _ _ this
    · intro fields k N data j x e hk hx hj
      have := h3 fields k e hk
      rw [hx] at this
      exact paramValue_entry h1 h2 _ N data j x this hj

/-! ### Trees -/

/-- Induction over libxc's structs. -/
theorem CFunc.ind {Q : CFunc → Prop} (h : ∀ c aux, (∀ a ∈ aux, Q a) → Q (.mk c aux)) (c : CFunc) : Q c :=
  CFunc.rec (motive_1 := Q) (motive_2 := fun l => ∀ a ∈ l, Q a) h (fun _ hm => absurd hm List.not_mem_nil)
    (fun _ _ h1 h2 _ hm => (List.mem_cons.1 hm).elim (fun e => e ▸ h1) (h2 _)) c

theorem cGetP_leaf (W : WorkMap) (R : ParamMap) (c : CFields) : cGetP W R (.mk c []) = getPBase W R c := by
  rw [cGetP.eq_def]
  simp only [bind, Except.bind]
  cases getPBase W R c <;> rfl

theorem cGetP_mix (W : WorkMap) (R : ParamMap) (c : CFields) (aux : List CFunc) (h : aux ≠ []) :
    cGetP W R (.mk c aux) = (getPBase W R c).bind fun d => (cGetPs W R aux).bind fun l =>
      .ok (d ++ [("func_aux", .list l), ("mix_coef", .arr ⟨[aux.length], (List.range aux.length).map c.mixCoef⟩)]) := by
  cases aux with
  | nil => exact absurd rfl h
  | cons a as => rw [cGetP.eq_def]; rfl

theorem cGetPs_cons (W : WorkMap) (R : ParamMap) (a : CFunc) (as : List CFunc) :
    cGetPs W R (a :: as) = (cGetP W R a).bind fun x => (cGetPs W R as).bind fun l => .ok (.dict x :: l) := by
  rw [cGetPs.eq_def]; rfl

theorem bind_ok {α β : Type} {x : Except PyErr α} {f : α → Except PyErr β} {v : β} (h : x.bind f = .ok v) : ∃ a, x = .ok a ∧ f a = .ok v := by
  cases x with
  | error e => cases h
  | ok a => exact ⟨a, rfl, h⟩

theorem read_list {W : WorkMap} {R : ParamMap} (k : String) : ∀ (aux : List CFunc),
    (∀ a ∈ aux, ∀ d k t, cGetP W R a = .ok d → convVal k (.dict d) = .ok t → ∃ p, ReadsAs t p ∧ Mirrors W R a p) →
    ∀ l ws, cGetPs W R aux = .ok l → convList k l = .ok ws →
    ∃ ts : List PTree, ts.length = aux.length ∧ ws.length = ts.length ∧ (∀ (n : ℕ) u q, ws[n]? = some u → ts[n]? = some q → ReadsAs u q) ∧
      ∀ (n : ℕ) a t, aux[n]? = some a → ts[n]? = some t → Mirrors W R a t
  | [], _, l, ws, h1, h2 => by
    rw [cGetPs.eq_def] at h1
    cases h1
    rw [convList] at h2
    cases h2
    exact ⟨[], rfl, rfl, by simp, by simp⟩
  | a :: aux, ih, l, ws, h1, h2 => by
    rw [cGetPs_cons] at h1
    obtain ⟨d, hd, h1⟩ := bind_ok h1
    obtain ⟨l', hl, h1⟩ := bind_ok h1
    cases h1
    rw [convList_cons] at h2
    obtain ⟨t, ht, h2⟩ := bind_ok h2
    obtain ⟨ws', hw, h2⟩ := bind_ok h2
    cases h2
    obtain ⟨p, hp1, hp2⟩ := ih a List.mem_cons_self d k t hd ht
    obtain ⟨ts, e1, e2, e3, e4⟩ := read_list k aux (fun a ha => ih a (List.mem_cons_of_mem _ ha)) l' ws' hl hw
    refine ⟨p :: ts, by simp [e1], by simp [e2], ?_, ?_⟩
    · intro n u q hu hq
      cases n with
      | zero => simp at hu hq; subst hu hq; exact hp1
      | succ n => exact e3 n u q (by simpa using hu) (by simpa using hq)
    · intro n u q hu hq
      cases n with
      | zero => simp at hu hq; subst hu hq; exact hp2
      | succ n => exact e4 n u q (by simpa using hu) (by simpa using hq)

/-- C29 for a struct: the namedtuple made of it mirrors it. -/
theorem c29_record {W : WorkMap} {R : ParamMap} (hR : ProperParams R) (c : CFunc) : ∀ d k t, cGetP W R c = .ok d → convVal k (.dict d) = .ok t →
    ∃ p, ReadsAs t p ∧ Mirrors W R c p := by
  induction c using CFunc.ind with
  | h c aux ih =>
    intro d k t h1 h2
    rcases List.eq_nil_or_concat aux with rfl | ⟨_, _, ha⟩
    · rw [cGetP_leaf] at h1
      obtain ⟨maple, type, hm, ht, rfl⟩ := getPBase_ok W R c d h1
      rw [convVal_plain _ _ (by simp [baseDict]), seq_base] at h2
      obtain ⟨fs, hfs, h2⟩ := bind_ok h2
      obtain ⟨p, hp, hfs⟩ := bind_ok hfs
      cases hfs
      obtain ⟨rfl, -, -⟩ := namedtuple_ok h2
      obtain ⟨i, hi, hf, hc⟩ := read_base hR c maple type hm ht p hp k [] [] rfl
      rw [List.append_nil] at hi
      exact ⟨.node i [], .leaf _ i hi (by simp [NT.attr, baseFields, List.lookup]), .mk c [] i [] hf hc rfl (by simp)⟩
    · have ha : aux ≠ [] := by rw [ha]; simp
      rw [cGetP_mix W R c aux ha] at h1
      obtain ⟨b, hb, h1⟩ := bind_ok h1
      obtain ⟨l, hl, h1⟩ := bind_ok h1
      cases h1
      obtain ⟨maple, type, hm, ht, rfl⟩ := getPBase_ok W R c b hb
      rw [convVal_plain _ _ (by simp [baseDict]), List.map_append, seqFields_append, seq_base] at h2
      obtain ⟨fs, hfs, h2⟩ := bind_ok h2
      obtain ⟨bf, hbf, hfs⟩ := bind_ok hfs
      obtain ⟨p, hp, hbf⟩ := bind_ok hbf
      cases hbf
      obtain ⟨ef, hef, hfs⟩ := bind_ok hfs
      cases hfs
      have : ∃ ws, convList "func_aux" l = .ok ws ∧
          ef = [("func_aux", .list ws), ("mix_coef", .arr ⟨[aux.length], (List.range aux.length).map c.mixCoef⟩)] := by
        simp only [List.map_cons, List.map_nil, seqFields, convVal, bind, Except.bind] at hef
        cases hc : convList "func_aux" l with
        | error e => rw [hc] at hef; cases hef
        | ok ws => rw [hc] at hef; cases hef; exact ⟨ws, rfl, rfl⟩
      obtain ⟨ws, hws, rfl⟩ := this
      obtain ⟨rfl, -, -⟩ := namedtuple_ok h2
      obtain ⟨ts, e1, e2, e3, e4⟩ := read_list "func_aux" aux ih l ws hl hws
      obtain ⟨i, hi, hf, hc⟩ := read_base hR c maple type hm ht p hp k
        [("func_aux", .list ws), ("mix_coef", .arr ⟨[aux.length], (List.range aux.length).map c.mixCoef⟩)] _ rfl
      refine ⟨.node i ts, .mix _ i ws ts hi (by simp [NT.attr, baseFields, List.lookup]) e2 e3, .mk c aux i ts hf ?_ e1 e4⟩
      rw [hc]
      simp [List.lookup]

/-- The two thresholds that no formula reads are in the namedtuple as well. -/
theorem c29_thresholds {W : WorkMap} {R : ParamMap} (c : CFields) (aux : List CFunc) (d k t) (h1 : cGetP W R (.mk c aux) = .ok d)
    (h2 : convVal k (.dict d) = .ok t) : t.attr "sigma_threshold" = some (.num c.sigmaThreshold) ∧ t.attr "tau_threshold" = some (.num c.tauThreshold) := by
  rcases List.eq_nil_or_concat aux with rfl | ⟨_, _, ha⟩
  · rw [cGetP_leaf] at h1
    obtain ⟨maple, type, hm, ht, rfl⟩ := getPBase_ok W R c d h1
    rw [convVal_plain _ _ (by simp [baseDict]), seq_base] at h2
    obtain ⟨fs, hfs, h2⟩ := bind_ok h2
    obtain ⟨p, hp, hfs⟩ := bind_ok hfs
    cases hfs
    obtain ⟨rfl, -, -⟩ := namedtuple_ok h2
    constructor <;> simp [NT.attr, baseFields, List.lookup]
  · have ha : aux ≠ [] := by rw [ha]; simp
    rw [cGetP_mix W R c aux ha] at h1
    obtain ⟨b, hb, h1⟩ := bind_ok h1
    obtain ⟨l, hl, h1⟩ := bind_ok h1
    cases h1
    obtain ⟨maple, type, hm, ht, rfl⟩ := getPBase_ok W R c b hb
    rw [convVal_plain _ _ (by simp [baseDict]), List.map_append, seqFields_append, seq_base] at h2
    obtain ⟨fs, hfs, h2⟩ := bind_ok h2
    obtain ⟨bf, hbf, hfs⟩ := bind_ok hfs
    obtain ⟨p, hp, hbf⟩ := bind_ok hbf
    cases hbf
    obtain ⟨ef, hef, hfs⟩ := bind_ok hfs
    cases hfs
    obtain ⟨rfl, -, -⟩ := namedtuple_ok h2
    constructor <;> simp [NT.attr, baseFields, List.lookup]

/-- C17 for `hyb_mgga_xc_b98`: its record has a formula, so `c17_single` applies to it although it is a hybrid. -/
theorem c17_b98 {W : WorkMap} {R : ParamMap} (c : CFunc) (p : PTree) (h : Mirrors W R c p) (hn : c.f.info.name = "hyb_mgga_xc_b98") :
    p.info.mapleName = "mgga_xc_b98" := by
  cases h with
  | mk c aux i ts hf _ _ _ =>
    have hn : c.info.name = "hyb_mgga_xc_b98" := hn
    have := hf.maple
    unfold getMapleName at this
    simp only [hn] at this
    exact (Except.ok.inj this).symm

/-- All structs in a tree have `nspin = k`. -/
inductive AllNspin (k : ℕ) : CFunc → Prop
  | mk (c : CFields) (aux : List CFunc) (h : c.nspin = k) (ha : ∀ a ∈ aux, AllNspin k a) : AllNspin k (.mk c aux)

/-- What is assumed of libxc: it creates the functional of the requested name and spin (with components of the same spin), and setting external
parameters changes neither. -/
structure LibOK (L : Lib) : Prop where
  init : ∀ name k c, L.init name k = .ok c → c.f.info.name = name ∧ AllNspin k c
  setExt : ∀ c ext c' k, L.setExt c ext = .ok c' → AllNspin k c → c'.f.info.name = c.f.info.name ∧ AllNspin k c'

theorem mirrors_nspin {W : WorkMap} {R : ParamMap} {k : ℕ} (c : CFunc) : ∀ p, Mirrors W R c p → AllNspin k c → ∀ i ∈ nodes p, i.nspin = k := by
  induction c using CFunc.ind with
  | h c aux ih =>
    intro p hm hn i hi
    cases hm with
    | mk _ _ i0 ts hf hc hl hcomp =>
      cases hn with
      | mk _ _ hk ha =>
        rw [nodes] at hi
        rcases List.mem_cons.1 hi with rfl | hi
        · rw [hf.nspin, hk]
        · have : ∀ ts : List PTree, (∀ t ∈ ts, ∀ i ∈ nodes t, i.nspin = k) → ∀ i ∈ nodesAll ts, i.nspin = k := by
            intro ts
            induction ts with
            | nil => intro _ i hi; rw [nodesAll] at hi; cases hi
            | cons t ts ih2 =>
              intro h i hi
              rw [nodesAll, List.mem_append] at hi
              exact hi.elim (h t List.mem_cons_self i) (ih2 (fun t ht => h t (List.mem_cons_of_mem _ ht)) i)
          refine this ts ?_ i hi
          intro t ht
          obtain ⟨n, hn⟩ := List.getElem?_of_mem ht
          have hlt : n < aux.length := by
            rw [← hl]
            exact (List.getElem?_eq_some_iff.1 hn).1
          have ha' : aux[n]? = some aux[n] := List.getElem?_eq_getElem hlt
          exact ih aux[n] (List.getElem_mem hlt) t (hcomp n _ _ ha' hn) (ha _ (List.getElem_mem hlt))

/-- C29: the record that `get_p(name, polarized, *ext)` returns mirrors the struct of libxc, has the functional's name and type, and `nspin` is
1 or 2 everywhere in the tree according to `polarized`. -/
theorem c29_getP {L : Lib} (hL : LibOK L) {W : WorkMap} {R : ParamMap} (hR : ProperParams R) (name : String) (polarized : Bool) (ext : List ℝ) (t : NT)
    (h : pyGetP L W R name polarized ext = .ok t) :
    ∃ c₀ c p, L.init name ((if polarized then 1 else 0) + 1) = .ok c₀ ∧ (if ext = [] then c = c₀ else L.setExt c₀ ext = .ok c) ∧
      ReadsAs t p ∧ Mirrors W R c p ∧ p.info.name = name ∧ nameToType name = .ok p.info.type ∧
      ∀ i ∈ nodes p, i.nspin = if polarized then 2 else 1 := by
  unfold pyGetP at h
  obtain ⟨c, hc, h⟩ := bind_ok h
  obtain ⟨c', hc', h⟩ := bind_ok h
  obtain ⟨d, hd, h⟩ := bind_ok h
  obtain ⟨h1, h2⟩ := hL.init _ _ _ hc
  have h3 : c'.f.info.name = name ∧ AllNspin ((if polarized then 1 else 0) + 1) c' := by
    split at hc'
    · obtain ⟨e1, e2⟩ := hL.setExt _ _ _ _ hc' h2
      exact ⟨e1.trans h1, e2⟩
    · cases hc'; exact ⟨h1, h2⟩
  obtain ⟨p, hp1, hp2⟩ := c29_record hR c' d "P" t hd h
  have hn := mirrors_nspin c' p hp2 h3.2
  refine ⟨c, c', p, hc, ?_, hp1, hp2, ?_, ?_, ?_⟩
  · split at hc'
    · rename_i he; rw [if_neg he]; exact hc'
    · rename_i he; cases hc'; rw [if_pos (not_not.1 he)]
  · cases hp2 with
    | mk c aux i ts hf _ _ _ => exact hf.name.trans h3.1
  · cases hp2 with
    | mk c aux i ts hf _ _ _ =>
      have := hf.type
      rw [show c.info.name = name from h3.1] at this
      exact this
  · intro i hi
    rw [hn i hi]
    cases polarized <;> rfl

/-! ### An instance: a mixture of two functionals, the second of which has a parameter -/

/-- A library with one mixture. -/
def demoLib : Lib where
  init name k := if name = "gga_xc_demo" then
      .ok (.mk (demoFields "gga_xc_demo" true k) [.mk (demoFields "gga_x_pbe" false k) [], .mk (demoFields "gga_c_pbe" false k) []])
    else .error .valueError
  setExt c _ := .ok c

theorem demoLib_ok : LibOK demoLib where
  init name k c h := by
    simp only [demoLib] at h
    split at h
    · rename_i e
      cases h
      refine ⟨e.symm, .mk _ _ rfl ?_⟩
      intro a ha
      simp only [List.mem_cons, List.not_mem_nil, or_false] at ha
      rcases ha with rfl | rfl <;> exact .mk _ _ rfl (by simp)
    · cases h
  setExt c ext c' k h hn := by
    cases h
    exact ⟨rfl, hn⟩

/-- Init function 3 has the parameters `kappa` and `lambda`. -/
def demoReg : ParamMap := paramMap [(3, ["kappa", "lambda"])]

theorem demoReg_proper : ProperParams demoReg := by
  intro k fields h
  simp only [demoReg, paramMap, List.foldl, registerInit] at h
  split at h
  · cases h; exact ⟨by decide, by decide⟩
  · cases h

example : ∃ t, pyGetP demoLib (workMap [(7, "gga_x_pbe")]) demoReg "gga_xc_demo" true [0.5] = .ok t ∧
    ∃ p, ReadsAs t p ∧ p.info.name = "gga_xc_demo" ∧ ∀ i ∈ nodes p, i.nspin = 2 := by
  have hp : ∃ t, pyGetP demoLib (workMap [(7, "gga_x_pbe")]) demoReg "gga_xc_demo" true [0.5] = .ok t := ⟨_, rfl⟩
  obtain ⟨t, ht⟩ := hp
  obtain ⟨c₀, c, p, -, -, h1, -, h3, -, h5⟩ := c29_getP demoLib_ok demoReg_proper _ _ _ _ ht
  exact ⟨t, ht, p, h1, h3, h5⟩

end Verif.Props
