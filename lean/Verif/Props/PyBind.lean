import Verif.Model.PyBind

/-!
# C67: what Python code reaches through the bindings
-/

namespace Sedaman.Props

/-! ## A member has the name of its attribute -/

/-- Header classes all of whose attributes are bound to the member of the same name. -/
def faithful (c : PyClass) : Prop :=
  (c.attrs.map (·.name)).Nodup ∧ ∀ x ∈ c.attrs, x.member = x.name ∧ x.name ∈ c.members

instance (c : PyClass) : Decidable (faithful c) := inferInstanceAs (Decidable (_ ∧ _))

/-- The two classes with wrong attributes. -/
def misbound : List String := ["GeneralHeaderEle", "GeneralHeaderSCa"]

theorem table_faithful : ∀ c ∈ pyClasses, c.name ∉ misbound → faithful c := by decide +kernel

theorem name_inj {l : List PyAttr} (h : (l.map (·.name)).Nodup) {x y : PyAttr} (hx : x ∈ l) (hy : y ∈ l)
    (e : x.name = y.name) : x = y := by
  induction l with
  | nil => cases hx
  | cons a t ih =>
    rw [List.map_cons, List.nodup_cons] at h
    rcases List.mem_cons.1 hx with rfl | hx' <;> rcases List.mem_cons.1 hy with rfl | hy'
    · rfl
    · exact absurd (List.mem_map.2 ⟨y, hy', e.symm⟩) h.1
    · exact absurd (List.mem_map.2 ⟨x, hx', e⟩) h.1
    · exact ih h.2 hx' hy'

theorem find_faithful {c : PyClass} (h : faithful c) {x : PyAttr} (hx : x ∈ c.attrs) :
    c.find x.name = some x := by
  unfold PyClass.find
  have hs : (c.attrs.reverse.find? (·.name = x.name)).isSome := by
    rw [List.find?_isSome]
    exact ⟨x, by simpa using hx, by simp⟩
  obtain ⟨y, hy⟩ := Option.isSome_iff_exists.1 hs
  rw [hy]
  have h1 : y ∈ c.attrs := by simpa using List.mem_of_find?_eq_some hy
  have h2 : y.name = x.name := by simpa using List.find?_some hy
  have := name_inj h.1 h1 hx h2
  rw [this]

/-- What a C++ member holds after a value was assigned to its attribute. -/
def storedAs (x : PyAttr) (v : PyVal) : PyVal :=
  match x.text, v with
  | some n, .text s => .text (strncpy s n)
  | _, w => w

/-- The kind of value an attribute takes. -/
def accepts (x : PyAttr) (v : PyVal) : Prop :=
  match x.text, v with
  | none, .text _ => False
  | some _, .num _ => False
  | some _, .dbl _ => False
  | _, _ => True

/-- **C67.** In every header class but two, reading an attribute gives the C++ member of the same
name, and assigning to it changes that member and nothing else. Missing: the two classes in
`misbound` (`C67_misbound`), and the members in `C67_not_exposed`. -/
theorem C67_attribute_partial (c : PyClass) (hc : c ∈ pyClasses) (hn : c.name ∉ misbound) (x : PyAttr)
    (hx : x ∈ c.attrs) (o : PyObj) :
    x.name ∈ c.members ∧ c.getattr o x.name = some (o x.name) ∧
    ∀ v, accepts x v → ∃ o', c.setattr o x.name v = some o' ∧ o' x.name = storedAs x v ∧
      ∀ k, k ≠ x.name → o' k = o k := by
  have hf := table_faithful c hc hn
  have hm := (hf.2 x hx).1
  have hfind := find_faithful hf hx
  refine ⟨(hf.2 x hx).2, ?_, ?_⟩
  · unfold PyClass.getattr
    rw [hfind, Option.map_some, hm]
  · intro v hv
    unfold PyClass.setattr
    rw [hfind]
    simp only
    rcases ht : x.text with _ | n <;> rcases v with v | v | s <;>
      simp only [accepts, ht] at hv <;> first | exact hv.elim | skip
    all_goals
      refine ⟨_, rfl, ?_, ?_⟩
      · simp only [hm, if_true, storedAs, ht]
      · intro k hk
        simp only [hm]
        rw [if_neg hk]

/-- **C67.** After any sequence of assignments to attributes, every attribute has the value of the
last assignment to it, or its first value if there was none. -/
theorem C67_history_partial (c : PyClass) (hc : c ∈ pyClasses) (hn : c.name ∉ misbound)
    (ops : List (PyAttr × PyVal)) (hops : ∀ p ∈ ops, p.1 ∈ c.attrs ∧ accepts p.1 p.2) (o : PyObj) :
    ∃ o', ops.foldlM (fun o p => c.setattr o p.1.name p.2) o = some o' ∧
      ∀ x ∈ c.attrs, c.getattr o' x.name = some
        (match ops.reverse.find? (fun p => p.1.name = x.name) with
        | some p => storedAs p.1 p.2
        | none => o x.name) := by
  induction ops generalizing o with
  | nil =>
    exact ⟨o, rfl, fun x hx => (C67_attribute_partial c hc hn x hx o).2.1⟩
  | cons p t ih =>
    obtain ⟨hp, ha⟩ := hops p (by simp)
    obtain ⟨-, -, hset⟩ := C67_attribute_partial c hc hn p.1 hp o
    obtain ⟨o1, e1, e2, e3⟩ := hset p.2 ha
    obtain ⟨o', e4, e5⟩ := ih (fun q hq => hops q (by simp [hq])) o1
    refine ⟨o', ?_, ?_⟩
    · rw [List.foldlM_cons, e1]
      exact e4
    · intro x hx
      rw [e5 x hx, List.reverse_cons, List.find?_append]
      cases e : t.reverse.find? (fun p => p.1.name = x.name) with
      | some q => rfl
      | none =>
        by_cases hk : p.1.name = x.name
        · have : p.1 = x := name_inj (table_faithful c hc hn).1 hp hx hk
          subst this
          simp [List.find?_cons, e2]
        · simp [List.find?_cons, hk, e3 x.name (fun h => hk h.symm)]

/-- The general header of revision 1 is one of the classes. -/
example : pyGeneralHeader ∈ pyClasses ∧ pyGeneralHeader.name ∉ misbound ∧
    (⟨"file_number", "file_number", none⟩ : PyAttr) ∈ pyGeneralHeader.attrs ∧
    accepts ⟨"file_number", "file_number", none⟩ (.num 5) := by
  refine ⟨by decide +kernel, by decide +kernel, by decide +kernel, trivial⟩

/-- **C67, violation.** The attributes of two classes that change or show another member. -/
theorem C67_misbound :
    ∀ c ∈ pyClasses, ∀ x ∈ c.attrs, x.member ≠ x.name ↔ (c.name, x.name, x.member) ∈
      [("GeneralHeaderEle", "group_idx", "depth_idx"),
       ("GeneralHeaderEle", "offset_crossline", "offset_inline"),
       ("GeneralHeaderSCa", "freq2", "freq1"), ("GeneralHeaderSCa", "amp2", "amp1"),
       ("GeneralHeaderSCa", "phase2", "phase1")] := by decide +kernel

/-- **C67, violation.** Assigning to `freq2` of a sensor calibration block changes `freq1`. -/
theorem C67_wrong_member (o : PyObj) (v : Int) :
    ∃ o', pyGeneralHeaderSCa.setattr o "freq2" (.num v) = some o' ∧ o' "freq1" = .num v ∧
      o' "freq2" = o "freq2" ∧ pyGeneralHeaderSCa.getattr o' "freq1" = some (.num v) := by
  have e1 : pyGeneralHeaderSCa.find "freq2" = some ⟨"freq2", "freq1", none⟩ := by decide +kernel
  have e2 : pyGeneralHeaderSCa.find "freq1" = some ⟨"freq1", "freq1", none⟩ := by decide +kernel
  refine ⟨fun k => if k = "freq1" then .num v else o k, ?_, rfl, rfl, ?_⟩
  · unfold PyClass.setattr
    rw [e1]
  · unfold PyClass.getattr
    rw [e2]
    rfl

/-- **C67, violation.** The public data members that no attribute of their class is named after. -/
theorem C67_not_exposed :
    ∀ c ∈ pyClasses, ∀ k ∈ c.members, k ∉ c.attrs.map (·.name) ↔ (c.name, k) ∈
      [("GeneralHeaderN", "sou_point_index"), ("GeneralHeaderExp", "group_idx"),
       ("GeneralHeaderEle", "depth_idx"), ("GeneralHeaderTim", "gen_hdr_block_type"),
       ("GeneralHeaderMeas", "measurement_description"), ("ChannelSetHeader", "ext_hdr_flag")] := by
  decide +kernel

/-! ## Texts -/

/-- Every text attribute uses the length of its array. -/
theorem C67_text_lengths : ∀ c ∈ pyClasses, ∀ x ∈ c.attrs, ∀ n, x.text = some n ↔
    (c.name, x.member, n) ∈ cppTextLengths := by
  have h : ∀ c ∈ pyClasses, ∀ x ∈ c.attrs,
      (∀ n ∈ x.text, (c.name, x.member, n) ∈ cppTextLengths) ∧
      ∀ q ∈ cppTextLengths, q.1 = c.name → q.2.1 = x.member → x.text = some q.2.2 := by
    decide +kernel
  intro c hc x hx n
  exact ⟨(h c hc x hx).1 n, fun hn => (h c hc x hx).2 _ hn rfl rfl⟩

theorem takeWhile_nonzero {s : Bytes} (h : ∀ b ∈ s, b ≠ 0) : s.takeWhile (· ≠ 0) = s := by
  induction s with
  | nil => rfl
  | cons a t ih =>
    rw [List.takeWhile_cons_of_pos (by simpa using h a (by simp)), ih fun b hb => h b (by simp [hb])]

/-- **C67.** A text of the length of the array and without NUL comes back; any text leaves exactly the
bytes of the array filled. -/
theorem C67_text (s : Bytes) (n : Nat) :
    (strncpy s n).length = n ∧ (s.length = n → (∀ b ∈ s, b ≠ 0) → strncpy s n = s) := by
  unfold strncpy
  constructor
  · simp only [List.length_append, List.length_take, List.length_replicate]
    omega
  · intro h1 h2
    simp only [takeWhile_nonzero h2]
    simp [← h1]

/-- **C67.** A shorter text without NUL comes back with NULs up to the length of the array, a longer one
is cut. -/
theorem C67_text_padded (s : Bytes) (n : Nat) (h : ∀ b ∈ s, b ≠ 0) :
    strncpy s n = s.take n ++ List.replicate (n - s.length) 0 := by
  unfold strncpy
  simp only [takeWhile_nonzero h, List.length_take]
  congr 2
  omega

/-- A job id shorter than its array. -/
example : strncpy [65, 66] 5 = [65, 66, 0, 0, 0] := by decide

/-! ## Methods, constants and value types -/

/-- **C67.** Every method but two is the C++ member function of the same name, no name is bound twice,
and every constant is the one of its name. -/
theorem C67_methods_partial :
    (∀ m ∈ pyMethods, m.function = m.name ∨ m ∈
      ([⟨"ISEGD", "general_header_client_name", "general_header_survey_name"⟩,
        ⟨"ISEGD", "general_header_explosive_info", "general_header_airgun_info"⟩] : List PyMethod)) ∧
    (pyMethods.map fun m => (m.owner, m.name)).Nodup ∧ ∀ m ∈ pyConstants, m.function = m.name := by
  decide +kernel

/-- **C67, violation.** In Python the client name block is the survey name block and the explosive source
block is the airgun block. -/
theorem C67_wrong_methods :
    (⟨"ISEGD", "general_header_client_name", "general_header_survey_name"⟩ : PyMethod) ∈ pyMethods ∧
    (⟨"ISEGD", "general_header_explosive_info", "general_header_airgun_info"⟩ : PyMethod) ∈ pyMethods := by
  decide +kernel

/-- **C67, violation.** The value types are bound under their own names, but the two of 24 bits are
missing in Python. -/
theorem C67_value_types :
    (∀ p ∈ pyValueTypes, p.1 = p.2 ∧ p.2 ∈ cppValueTypes) ∧
    ∀ v ∈ cppValueTypes, v ∉ pyValueTypes.map (·.1) ↔ v = "int24_t" ∨ v = "uint24_t" := by
  decide +kernel

end Sedaman.Props
