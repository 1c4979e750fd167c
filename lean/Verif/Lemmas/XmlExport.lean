import Verif.Spec.XmlExport
import Verif.Lemmas.SceneRigid3D
import Verif.Lemmas.Rotations
/-!
# Lemmas for C81
-/

namespace Scisim

open Matrix

theorem digit_ofNat (n : ℕ) (h : n < 10) : Char.ofNat (48 + n) = Digit.char ⟨n, h⟩ := rfl

theorem natText_digits (n : ℕ) : ∃ ds : List Digit, natText n = digitText ds ∧ ds ≠ [] ∧ digitsNat ds = n := by
  induction n using Nat.strong_induction_on with
  | _ n ih =>
    rw [natText]
    split
    · rename_i h
      exact ⟨[⟨n, h⟩], rfl, by simp, by rw [digitsNat_singleton]⟩
    · rename_i h
      obtain ⟨ds, h1, h2, h3⟩ := ih (n / 10) (by omega)
      refine ⟨ds ++ [⟨n % 10, Nat.mod_lt _ (by omega)⟩], ?_, by simp, ?_⟩
      · rw [h1, digit_ofNat _ (Nat.mod_lt _ (by omega))]
        simp [digitText]
      · rw [digitsNat_append, h3, digitsNat_singleton]
        simp only [List.length_singleton, pow_one]
        omega

theorem isInt_natText (n : ℕ) (h : n < 2 ^ 31) : IsInt (natText n) n := by
  obtain ⟨ds, h1, h2, h3⟩ := natText_digits n
  refine ⟨.none, ds, [], ⟨[], by simp [Blank], by simp [h1, Sign.chars], h2, by simp⟩, by simp [Blank], by simp [Sign.factor, h3], by omega, by exact_mod_cast h⟩

theorem isFlag_flagText (b : Bool) : IsFlag (flagText b) b := by
  cases b
  · exact ⟨.none, [0], [], ⟨[], by simp [Blank], rfl, by simp, by simp⟩, by simp [Blank], by rw [digitsNat_singleton]; rfl⟩
  · exact ⟨.none, [1], [], ⟨[], by simp [Blank], rfl, by simp, by simp⟩, by simp [Blank], by rw [digitsNat_singleton]; rfl⟩

theorem digit_ne_space (d : Digit) : d.char ≠ ' ' := by revert d; decide

theorem space_notin_digits (ds : List Digit) : ' ' ∉ digitText ds := by
  intro h
  obtain ⟨d, _, hd⟩ := List.mem_map.mp h
  exact digit_ne_space d hd

theorem space_notin_numeral (n : Numeral) : ' ' ∉ n.text := by
  obtain ⟨sg, ip, fp, ex⟩ := n
  have hs : ∀ s : Sign, ' ' ∉ s.chars := by intro s; cases s <;> simp [Sign.chars]
  unfold Numeral.text
  simp only [List.mem_append, not_or]
  refine ⟨⟨⟨hs _, space_notin_digits _⟩, ?_⟩, ?_⟩
  · cases fp <;> simp [space_notin_digits]
  · rcases ex with _ | ⟨u, s, ds⟩
    · simp
    · cases u <;> simp [space_notin_digits, hs]

theorem space_continues_not (n : Numeral) : ¬ n.Continues ' ' := by
  rintro (⟨d, hd⟩ | ⟨_, h | h⟩ | ⟨_, _, h⟩)
  · exact digit_ne_space d hd.symm
  · exact absurd h (by decide)
  · exact absurd h (by decide)
  · exact absurd h (by decide)

variable {fmt : ℝ → List Char} {val : ℝ → ℚ}

theorem begins_fmt (hf : Formats fmt val) (x : ℝ) (ws rest : List Char) (hw : Blank ws) (hr : ∀ c, rest.head? = some c → c = ' ') :
    BeginsWithNumber (ws ++ fmt x ++ rest) (val x) rest := by
  obtain ⟨n, hg, ht, hv, hd⟩ := hf x
  refine ⟨n, ⟨ws, hw, by rw [ht], hg, fun c hc => ?_⟩, hv, hd⟩
  rw [hr c hc]
  exact space_continues_not n

theorem isNumber_fmt (hf : Formats fmt val) (x : ℝ) : IsNumber (fmt x) (val x) := by
  have h := begins_fmt hf x [] [] (by simp [Blank]) (by simp)
  simp only [List.nil_append, List.append_nil] at h
  exact ⟨[], h, by simp [Blank]⟩

theorem areNumbers_triple (hf : Formats fmt val) (v : Vec3) : AreNumbers (tripleText fmt v) [val (v 0), val (v 1), val (v 2)] := by
  have hsp : Blank [' '] := by intro c hc; rw [List.mem_singleton.mp hc]; rfl
  have hh : ∀ l : List Char, ∀ c, ([' '] ++ l).head? = some c → c = ' ' := by intro l c h; simpa using h.symm
  have e : tripleText fmt v = [] ++ fmt (v 0) ++ ([' '] ++ fmt (v 1) ++ ([' '] ++ fmt (v 2) ++ [])) := by simp [tripleText, List.append_assoc]
  rw [e]
  refine .cons (begins_fmt hf _ _ _ (by simp [Blank]) ?_) ?_ (.cons (begins_fmt hf _ _ _ hsp ?_) ?_ (.cons (begins_fmt hf _ _ _ hsp ?_) ?_ (.nil (by simp [Blank]))))
  · intro c h; rw [List.append_assoc] at h; exact hh _ c h
  · intro c h; rw [List.append_assoc] at h; rw [hh _ c h]; rfl
  · intro c h; rw [List.append_assoc] at h; exact hh _ c h
  · intro c h; rw [List.append_assoc] at h; rw [hh _ c h]; rfl
  · simp
  · simp

theorem spacedList_triple (hf : Formats fmt val) (v : Vec3) :
    SpacedList IsEntry (tripleText fmt v) [.finite (val (v 0)), .finite (val (v 1)), .finite (val (v 2))] := by
  refine ⟨by simp [tripleText], [fmt (v 0), fmt (v 1), fmt (v 2)], by simp [tripleText, List.intercalate, List.intersperse], ?_, ?_⟩
  · intro t ht
    simp only [List.mem_cons, List.not_mem_nil, or_false] at ht
    have h : ∀ x, ' ' ∉ fmt x := by
      intro x
      obtain ⟨n, -, h, -⟩ := hf x
      rw [h]; exact space_notin_numeral n
    rcases ht with rfl | rfl | rfl <;> exact h _
  · exact .cons (hf _) (.cons (hf _) (.cons (hf _) .nil))

theorem exportGeometry_name {g : StoredGeometry} {nd : XmlNode} (h : exportGeometry fmt g = .ok nd) : nd.name = "geometry" := by
  cases g <;> simp only [exportGeometry, Outcome.ok.injEq, reduceCtorEq] at h <;> subst h <;> rfl

theorem exportBody_name {aa : Mat3 → ℝ × Vec3} {geometry : List StoredGeometry} {b : StoredBody} {nd : XmlNode} (h : exportBody fmt aa geometry b = .ok nd) :
    nd.name = "rigid_body_with_density" := by
  unfold exportBody at h
  split at h
  · cases h
  · simp only [Outcome.ok.injEq] at h; subst h; rfl

/-- What a file that was written consists of -/
theorem saveToXML_ok {aa : Mat3 → ℝ × Vec3} {geometry : List StoredGeometry} {bodies : List StoredBody} {doc : XmlNode} :
    saveToXML fmt aa geometry bodies = .ok doc ↔ ∃ gs bs, List.Forall₂ (fun g nd => exportGeometry fmt g = .ok nd) geometry gs ∧
      List.Forall₂ (fun b nd => exportBody fmt aa geometry b = .ok nd) bodies bs ∧ doc = sceneOf (gs ++ bs) := by
  unfold saveToXML
  simp only [Outcome.bind_eq_ok, mapNodes_ok, Outcome.ok.injEq]
  constructor
  · rintro ⟨gs, hg, bs, hb, rfl⟩
    exact ⟨gs, bs, hg, hb, rfl⟩
  · rintro ⟨gs, bs, hg, hb, rfl⟩
    exact ⟨gs, hg, bs, hb, rfl⟩

theorem isGeometry_export (hf : Formats fmt val) (files : MeshFiles) {g : StoredGeometry} {nd : XmlNode} (h : exportGeometry fmt g = .ok nd)
    (hp : ∀ r, g = .sphere r → 0 < val r) (hm : ∀ f v, g = .mesh f v → files f = .ok ()) {e : Geometry3DElement} (he : StandsFor val g e) :
    IsGeometry3D exactReading files nd e := by
  cases g with
  | sphere r =>
    simp only [exportGeometry, Outcome.ok.injEq] at h
    subst h; rw [show e = .sphere (val r) from he]
    exact ⟨rfl, ⟨_, rfl, by rw [String.toList_ofList]; exact isNumber_fmt hf r⟩, hp r rfl⟩
  | box w => cases h
  | staple w l D => cases h
  | mesh f v =>
    simp only [exportGeometry, Outcome.ok.injEq] at h
    subst h; rw [show e = .mesh f from he]
    exact ⟨rfl, rfl, hm f v rfl⟩

theorem standsFor_of_export {g : StoredGeometry} {nd : XmlNode} (h : exportGeometry fmt g = .ok nd) : ∃ e, StandsFor val g e := by
  cases g with
  | sphere r => exact ⟨_, rfl⟩
  | box w => cases h
  | staple w l D => cases h
  | mesh f v => exact ⟨_, rfl⟩

theorem isBody_export (hf : Formats fmt val) {aa : Mat3 → ℝ × Vec3} {geometry : List StoredGeometry} {b : StoredBody} {nd : XmlNode}
    (h : exportBody fmt aa geometry b = .ok nd) (hi : b.geo < 2 ^ 31) {c : Body3DElement} (hc : StandsForBody val aa geometry b c) :
    IsBody3D exactReading false geometry.length nd c := by
  unfold exportBody at h
  split at h
  · cases h
  · rename_i g hg
    simp only [Outcome.ok.injEq] at h
    subst h
    obtain ⟨h1, h2, h3, h4, h5, ⟨g', hg', h6⟩, r, rfl, h7⟩ := hc
    obtain rfl : g = g' := by rw [hg] at hg'; exact Option.some.inj hg'
    have hlt : b.geo < geometry.length := (List.getElem?_eq_some_iff.mp hg).1
    refine ⟨⟨_, rfl, ?_⟩, ⟨_, rfl, ?_⟩, ⟨_, rfl, ?_⟩, ⟨_, rfl, ?_⟩, fun h => (by cases h), ⟨_, rfl, ?_⟩, ⟨b.geo, ⟨_, rfl, ?_⟩, ?_⟩, Or.inr ⟨_, ⟨_, rfl, ?_⟩, h7⟩⟩
    · rw [String.toList_ofList, h1]; exact areNumbers_triple hf _
    · rw [String.toList_ofList, h2]; exact areNumbers_triple hf _
    · rw [String.toList_ofList, h3]; exact areNumbers_triple hf _
    · rw [String.toList_ofList, h6]; exact isNumber_fmt hf _
    · rw [String.toList_ofList, h4]; exact isFlag_flagText _
    · rw [String.toList_ofList]; exact isInt_natText _ hi
    · rw [h5]; exact ⟨hlt, by omega, Or.inl ⟨by omega, rfl⟩⟩
    · rw [String.toList_ofList]; exact spacedList_triple hf _

theorem standsForBody_of_export {aa : Mat3 → ℝ × Vec3} {geometry : List StoredGeometry} {b : StoredBody} {nd : XmlNode}
    (h : exportBody fmt aa geometry b = .ok nd) : ∃ c, StandsForBody val aa geometry b c := by
  unfold exportBody at h
  split at h
  · cases h
  · rename_i g hg
    exact ⟨⟨written val b.state.x, written val b.state.v, written val b.state.omega, val (b.state.M / g.volume), b.fixed, b.geo, some (.finite _, .finite _, .finite _)⟩,
      rfl, rfl, rfl, rfl, rfl, ⟨g, hg, rfl⟩, _, rfl, rfl⟩

/-! ## Elements that are added to a scene -/

theorem filter_export {α : Type} {f : α → Outcome XmlNode} {name n : String} {l : List α} {nds : List XmlNode} (h : List.Forall₂ (fun a nd => f a = .ok nd) l nds)
    (hn : ∀ a nd, f a = .ok nd → nd.name = name) : nds.filter (fun c => c.name = n) = if name = n then nds else [] := by
  induction h with
  | nil => simp
  | cons h _ ih =>
    rw [List.filter_cons, ih, hn _ _ h]
    by_cases e : name = n <;> simp [e]

theorem find_export {α : Type} {f : α → Outcome XmlNode} {name n : String} {l : List α} {nds : List XmlNode} (h : List.Forall₂ (fun a nd => f a = .ok nd) l nds)
    (hn : ∀ a nd, f a = .ok nd → nd.name = name) (hne : name ≠ n) : nds.find? (fun c => c.name = n) = none := by
  induction h with
  | nil => rfl
  | cons h _ ih => rw [List.find?_cons, hn _ _ h]; simpa [hne] using ih

/-- The rotation that is read from the vector of an angle and an axis -/
theorem rotationMatrix_angleAxis {t : ℝ} {u : Vec3} (ht : 0 ≤ t) (hu : u 0 ^ 2 + u 1 ^ 2 + u 2 ^ 2 = 1) : rotationMatrix (t • u) = angleAxisMatrix t u := by
  have hn : norm3 (t • u) = t := by
    unfold norm3
    rw [show (t • u) 0 * (t • u) 0 + (t • u) 1 * (t • u) 1 + (t • u) 2 * (t • u) 2 = t ^ 2 by
      simp only [Pi.smul_apply, smul_eq_mul]; linear_combination t ^ 2 * hu]
    exact Real.sqrt_sq ht
  unfold rotationMatrix
  rw [hn]
  rcases ht.eq_or_lt with rfl | hpos
  · rw [if_neg (by simp), angleAxis_zero]
  · rw [if_pos hpos.ne']
    congr 1
    unfold normalized3
    rw [hn, if_pos hpos]
    funext k
    simp only [Pi.smul_apply, smul_eq_mul]
    field_simp

theorem vec_written {val : ℝ → ℚ} {v : Vec3} (h : ExactVec val v) : vecOf (written val v) = v := by
  funext i
  fin_cases i
  · exact h 0
  · exact h 1
  · exact h 2

theorem listVec_written {val : ℝ → ℚ} {v : Vec3} (h : ExactVec val v) :
    ListTriple.vec (.finite (written val v).1, .finite (written val v).2.1, .finite (written val v).2.2) = some v :=
  congrArg some (vec_written h)

end Scisim
