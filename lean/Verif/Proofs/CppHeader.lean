import Verif.Proofs.CppSource

/-!
# Parsing the header files that the generator writes
-/

namespace ISD.Cpp
open Generator

/-! ## Templates -/

/-- The text is lexed to these tokens, whatever follows that does not continue its last word. -/
def Lexes (l : List Char) (ts : List Tok) : Prop :=
  ∀ d b, isId d = false → tokens (l ++ d :: b) = ts ++ tokens (d :: b)

theorem run_word_end (a : Name) (d : Char) (b : List Char) (hd : isId d = false) :
    run (.word a) (d :: b) = ((run .space (d :: b)).1, .word a :: (run .space (d :: b)).2) := by
  simp only [run, step, hd, Bool.false_eq_true, if_false, List.cons_append]

theorem Plain.lexes {n : String} (h : Plain n) : Lexes n.toList [.id n.toList] := by
  intro d b hd
  simp only [tokens]
  rw [run_append, h.run]
  simp only [St.add, St.emit, run_word_end _ d b hd, List.nil_append, List.map_cons, List.cons_append]
  rw [← h.word]
  rfl

/-- A symbol. -/
theorem tokens_sym (c : Char) (b : List Char) (h : start c = (.space, [.sym c])) : tokens (c :: b) = symbol c :: tokens b := by
  simp only [tokens, run, step, h, List.map_cons, List.cons_append, List.nil_append]
  rfl

theorem tokens_space (b : List Char) : tokens (' ' :: b) = tokens b := rfl

/-- An argument of a template: a name, or a template with a name as argument. -/
def ArgOk (x : String) : Prop := Plain x ∨ ∃ a b, Plain a ∧ Plain b ∧ x = a ++ "<" ++ b ++ ">"

/-- What `Template.declaration` needs of the names. -/
structure TemplateOk (t : Template) : Prop where
  name : Plain t.name
  template : Plain t.template
  some : t.types ≠ []
  types : ∀ x ∈ t.types, ArgOk x
  flagsName : Plain (t.template ++ "Flags")
  flags : ∀ f ∈ t.flags, Plain f

theorem ArgOk.lexes {x : String} (h : ArgOk x) : Lexes x.toList (lineTokens x) := by
  rcases h with h | ⟨a, b, ha, hb, rfl⟩
  · rw [show lineTokens x = [.id x.toList] from h.lexes '\n' [] rfl]
    exact h.lexes
  · have key : ∀ d r, tokens ((a ++ "<" ++ b ++ ">").toList ++ d :: r) =
        [.id a.toList, .lt, .id b.toList, .gt] ++ tokens (d :: r) := by
      intro d r
      have e : (a ++ "<" ++ b ++ ">").toList ++ d :: r = a.toList ++ '<' :: (b.toList ++ '>' :: (d :: r)) := by
        simp only [String.toList_append, List.append_assoc]
        rfl
      rw [e, ha.lexes '<' _ rfl, tokens_sym '<' _ rfl, hb.lexes '>' _ rfl, tokens_sym '>' _ rfl]
      rfl
    intro d r hd
    rw [key d r, show lineTokens (a ++ "<" ++ b ++ ">") = [.id a.toList, .lt, .id b.toList, .gt] from key '\n' []]

theorem lineTokens_arg {x : String} (h : ArgOk x) :
    lineTokens x = [.id x.toList] ∨ ∃ a b, lineTokens x = [.id a, .lt, .id b, .gt] ∧ x.toList = a ++ '<' :: b ++ ['>'] := by
  rcases h with h | ⟨a, b, ha, hb, rfl⟩
  · exact .inl (h.lexes '\n' [] rfl)
  · right
    refine ⟨a.toList, b.toList, ?_, ?_⟩
    · have e : (a ++ "<" ++ b ++ ">").toList ++ ['\n'] = a.toList ++ '<' :: (b.toList ++ '>' :: ['\n']) := by
        simp only [String.toList_append, List.append_assoc]
        rfl
      rw [lineTokens, e, ha.lexes '<' _ rfl, tokens_sym '<' _ rfl, hb.lexes '>' _ rfl, tokens_sym '>' _ rfl]
      rfl
    · simp only [String.toList_append, List.append_assoc]
      rfl

/-- The tokens of a flag. -/
def flagTokens (t f : String) : List Tok := [.id (t ++ "Flags").toList, .colon, .colon, .id f.toList]

theorem lexes_flag {t f : String} (ht : Plain (t ++ "Flags")) (hf : Plain f) : Lexes (t ++ "Flags::" ++ f).toList (flagTokens t f) := by
  intro d r hd
  have e : (t ++ "Flags::" ++ f).toList ++ d :: r = (t ++ "Flags").toList ++ ':' :: (':' :: (f.toList ++ d :: r)) := by
    simp only [String.toList_append, List.append_assoc]
    rfl
  rw [e, ht.lexes ':' _ rfl, tokens_sym ':' _ rfl, tokens_sym ':' _ rfl, hf.lexes d _ hd]
  rfl

/-- A separated list behind its first item. -/
theorem tokens_separated (sep : Char) (hs : start sep = (.space, [.sym sep])) (hi : isId sep = false) (g : String → String)
    (toks : String → List Tok) (xs : List String) (h : ∀ x ∈ xs, Lexes (g x).toList (toks x)) (d : Char) (hd : isId d = false) (b : List Char) :
    tokens ((separated (String.singleton sep) g xs true).toList ++ d :: b) =
      (xs.flatMap fun x => symbol sep :: toks x) ++ tokens (d :: b) := by
  induction xs with
  | nil => rfl
  | cons x xs ih =>
    have e : (separated (String.singleton sep) g (x :: xs) true).toList ++ d :: b =
        sep :: ((g x).toList ++ ((separated (String.singleton sep) g xs true).toList ++ d :: b)) := by
      rw [separated, if_pos rfl, String.toList_append, String.toList_append, String.toList_singleton]
      simp only [List.append_assoc, List.cons_append, List.nil_append]
    obtain ⟨c, q, hq, hc⟩ : ∃ c q, (separated (String.singleton sep) g xs true).toList ++ d :: b = c :: q ∧ isId c = false := by
      cases xs with
      | nil => exact ⟨d, b, rfl, hd⟩
      | cons y ys =>
        refine ⟨sep, (g y).toList ++ ((separated (String.singleton sep) g ys true).toList ++ d :: b), ?_, hi⟩
        rw [separated, if_pos rfl, String.toList_append, String.toList_append, String.toList_singleton]
        simp only [List.append_assoc, List.cons_append, List.nil_append]
    have ih := ih fun y hy => h y (List.mem_cons_of_mem _ hy)
    rw [e, tokens_sym sep _ hs, List.flatMap_cons, List.append_assoc, ← ih, hq, h x (List.mem_cons_self ..) c q hc]
    rfl

/-- The tokens of the arguments, up to `>;`. -/
def argTokens (t : Template) : List Tok :=
  match t.types, t.flags with
  | [], _ => []
  | x :: xs, [] => lineTokens x ++ (xs.flatMap fun y => .comma :: lineTokens y)
  | x :: xs, f :: fs => lineTokens x ++ (xs.flatMap fun y => .comma :: lineTokens y) ++ .comma :: (flagTokens t.template f ++
      fs.flatMap fun y => .pipe :: flagTokens t.template y)

/-- The tokens of a declaration. -/
def usingTokens (t : Template) : List Tok :=
  [.using_, .id t.name.toList, .assign, .id t.template.toList, .lt] ++ argTokens t ++ [.gt, .semi]

theorem tokens_declaration {t : Template} (h : TemplateOk t) : lineTokens t.declaration = usingTokens t := by
  obtain ⟨x, xs, hx⟩ := List.exists_cons_of_ne_nil h.some
  have hty : ∀ d b, isId d = false → tokens ((separated "," id t.types false).toList ++ d :: b) =
      lineTokens x ++ (xs.flatMap fun y => .comma :: lineTokens y) ++ tokens (d :: b) := by
    intro d b hd
    have e : (separated "," id t.types false).toList ++ d :: b = x.toList ++ ((separated (String.singleton ',') id xs true).toList ++ d :: b) := by
      rw [hx, separated, if_neg Bool.false_ne_true, String.toList_append, String.toList_append, List.append_assoc]
      rfl
    have hs := tokens_separated ',' rfl rfl id lineTokens xs (fun y hy => (h.types y (hx ▸ List.mem_cons_of_mem _ hy)).lexes) d hd b
    obtain ⟨c, q, hq, hc⟩ : ∃ c q, (separated (String.singleton ',') id xs true).toList ++ d :: b = c :: q ∧ isId c = false := by
      cases xs with
      | nil => exact ⟨d, b, rfl, hd⟩
      | cons y ys =>
        refine ⟨',', (id y : String).toList ++ ((separated (String.singleton ',') id ys true).toList ++ d :: b), ?_, rfl⟩
        rw [separated, if_pos rfl, String.toList_append, String.toList_append, String.toList_singleton]
        simp only [List.append_assoc, List.cons_append, List.nil_append]
    rw [e, hq, (h.types x (hx ▸ List.mem_cons_self ..)).lexes c q hc, ← hq, hs, List.append_assoc]
    rfl
  have hstart : ∀ l : List Char, tokens ("            using ".toList ++ (t.name.toList ++ (" = ".toList ++ (t.template.toList ++ ("<".toList ++ l))))) =
      [.using_, .id t.name.toList, .assign, .id t.template.toList, .lt] ++ tokens l := by
    intro l
    have h1 : ∀ m, tokens ("            using ".toList ++ m) = .using_ :: tokens m := by
      intro m
      simp only [tokens]
      rw [run_append, show run .space "            using ".toList = (.space, [.word ['u', 's', 'i', 'n', 'g']]) from rfl]
      rfl
    have h2 : tokens (t.name.toList ++ (" = ".toList ++ (t.template.toList ++ ("<".toList ++ l)))) =
        [.id t.name.toList] ++ tokens (" = ".toList ++ (t.template.toList ++ ("<".toList ++ l))) := h.name.lexes ' ' _ rfl
    have h3 : tokens (" = ".toList ++ (t.template.toList ++ ("<".toList ++ l))) = .assign :: tokens (t.template.toList ++ ("<".toList ++ l)) := rfl
    have h4 : tokens (t.template.toList ++ ("<".toList ++ l)) = [.id t.template.toList] ++ tokens ("<".toList ++ l) := h.template.lexes '<' _ rfl
    rw [h1, h2, h3, h4]
    rfl
  cases hf : t.flags with
  | nil =>
    have e : t.declaration.toList ++ ['\n'] = "            using ".toList ++ (t.name.toList ++ (" = ".toList ++ (t.template.toList ++ ("<".toList ++
        ((separated "," id t.types false).toList ++ '>' :: [';', '\n']))))) := by
      delta Template.declaration
      rw [hf, if_neg (by decide)]
      simp only [String.toList_append, List.append_assoc]
      rfl
    rw [lineTokens, e, hstart, hty '>' _ rfl, usingTokens, argTokens, hx, hf]
    simp only [List.append_assoc]
    rfl
  | cons f fs =>
    have e : t.declaration.toList ++ ['\n'] = "            using ".toList ++ (t.name.toList ++ (" = ".toList ++ (t.template.toList ++ ("<".toList ++
        ((separated "," id t.types false).toList ++ ',' :: ((t.template ++ "Flags::" ++ f).toList ++
          ((separated (String.singleton '|') (fun fl => t.template ++ "Flags::" ++ fl) fs true).toList ++ '>' :: [';', '\n']))))))) := by
      delta Template.declaration
      rw [hf, if_pos (by simp), if_pos (by rw [hx]; simp), separated, if_neg Bool.false_ne_true]
      simp only [String.toList_append, List.append_assoc]
      rfl
    have hs := tokens_separated '|' rfl rfl (fun fl => t.template ++ "Flags::" ++ fl) (flagTokens t.template) fs
      (fun y hy => lexes_flag h.flagsName (h.flags y (hf ▸ List.mem_cons_of_mem _ hy))) '>' rfl [';', '\n']
    obtain ⟨c, q, hq, hc⟩ : ∃ c q, (separated (String.singleton '|') (fun fl => t.template ++ "Flags::" ++ fl) fs true).toList ++ '>' :: [';', '\n'] = c :: q ∧ isId c = false := by
      cases fs with
      | nil => exact ⟨'>', _, rfl, rfl⟩
      | cons y ys =>
        refine ⟨'|', (t.template ++ "Flags::" ++ y).toList ++ ((separated (String.singleton '|') (fun fl => t.template ++ "Flags::" ++ fl) ys true).toList ++ '>' :: [';', '\n']), ?_, rfl⟩
        rw [separated, if_pos rfl, String.toList_append, String.toList_append, String.toList_singleton]
        simp only [List.append_assoc, List.cons_append, List.nil_append]
    rw [lineTokens, e, hstart, hty ',' _ rfl, tokens_sym ',' _ rfl, hq, lexes_flag h.flagsName (h.flags f (hf ▸ List.mem_cons_self ..)) c q hc,
      ← hq, hs, usingTokens, argTokens, hx, hf]
    simp only [List.append_assoc]
    rfl

theorem parseArgs_comma {a : Name} {r r' : List Tok} {ts : List Name} {fs : List (Name × Name)} (h : parseArgs r = some ((ts, fs), r')) :
    parseArgs (.id a :: .comma :: r) = some ((a :: ts, fs), r') := by
  rw [parseArgs, h]

theorem parseArgs_app {a b : Name} {r r' : List Tok} {ts : List Name} {fs : List (Name × Name)} (h : parseArgs r = some ((ts, fs), r')) :
    parseArgs (.id a :: .lt :: .id b :: .gt :: .comma :: r) = some (((a ++ '<' :: b ++ ['>']) :: ts, fs), r') := by
  rw [parseArgs, h]

theorem parseArgs_pipe {a x : Name} {r r' : List Tok} {fs : List (Name × Name)} (h : parseArgs r = some (([], fs), r')) :
    parseArgs (.id a :: .colon :: .colon :: .id x :: .pipe :: r) = some (([], (a, x) :: fs), r') := by
  rw [parseArgs, h]

/-- The flags. -/
theorem parseArgs_flags (t f : String) (fs : List String) (r : List Tok) :
    parseArgs ((flagTokens t f ++ fs.flatMap fun y => .pipe :: flagTokens t y) ++ .gt :: .semi :: r) =
      some (([], (f :: fs).map fun g => ((t ++ "Flags").toList, g.toList)), r) := by
  induction fs generalizing f with
  | nil => rfl
  | cons g fs ih =>
    have h := parseArgs_pipe (a := (t ++ "Flags").toList) (x := f.toList) (ih g)
    simpa only [flagTokens, List.flatMap_cons, List.cons_append, List.nil_append, List.append_assoc, List.map_cons] using h

/-- The types, before a comma and something else. -/
theorem parseArgs_types (x : String) (xs : List String) (hx : ∀ y ∈ x :: xs, ArgOk y) {fl : List (Name × Name)} {tail r : List Tok}
    (h : parseArgs tail = some (([], fl), r)) :
    parseArgs ((lineTokens x ++ xs.flatMap fun y => .comma :: lineTokens y) ++ .comma :: tail) =
      some (((x :: xs).map (·.toList), fl), r) := by
  induction xs generalizing x with
  | nil =>
    rcases lineTokens_arg (hx x (List.mem_cons_self ..)) with hp | ⟨a, b, hp, hab⟩
    · rw [hp]
      exact parseArgs_comma h
    · rw [hp]
      simp only [List.map_cons, List.map_nil, hab]
      exact parseArgs_app h
  | cons y xs ih =>
    have ih := ih y fun z hz => hx z (List.mem_cons_of_mem _ hz)
    rcases lineTokens_arg (hx x (List.mem_cons_self ..)) with hp | ⟨a, b, hp, hab⟩
    · rw [hp]
      have h := parseArgs_comma (a := x.toList) ih
      simpa only [List.flatMap_cons, List.cons_append, List.nil_append, List.append_assoc, List.map_cons] using h
    · rw [hp]
      have h := parseArgs_app (a := a) (b := b) ih
      rw [List.map_cons, hab]
      simpa only [List.flatMap_cons, List.cons_append, List.nil_append, List.append_assoc, List.map_cons] using h

/-- The types alone. -/
theorem parseArgs_only (x : String) (xs : List String) (hx : ∀ y ∈ x :: xs, ArgOk y) (r : List Tok) :
    parseArgs ((lineTokens x ++ xs.flatMap fun y => .comma :: lineTokens y) ++ .gt :: .semi :: r) =
      some (((x :: xs).map (·.toList), []), r) := by
  induction xs generalizing x with
  | nil =>
    rcases lineTokens_arg (hx x (List.mem_cons_self ..)) with hp | ⟨a, b, hp, hab⟩
    · rw [hp]
      rfl
    · rw [hp]
      simp only [List.map_cons, List.map_nil, hab]
      rfl
  | cons y xs ih =>
    have ih := ih y fun z hz => hx z (List.mem_cons_of_mem _ hz)
    rcases lineTokens_arg (hx x (List.mem_cons_self ..)) with hp | ⟨a, b, hp, hab⟩
    · rw [hp]
      have h := parseArgs_comma (a := x.toList) ih
      simpa only [List.flatMap_cons, List.cons_append, List.nil_append, List.append_assoc, List.map_cons] using h
    · rw [hp]
      have h := parseArgs_app (a := a) (b := b) ih
      rw [List.map_cons, hab]
      simpa only [List.flatMap_cons, List.cons_append, List.nil_append, List.append_assoc, List.map_cons] using h

/-- What a template of the description stands for. -/
def useOf (t : Template) : Use := ⟨t.template.toList, t.types.map (·.toList), t.flags.map (·.toList)⟩

theorem parseArgs_template {t : Template} (h : TemplateOk t) (r : List Tok) :
    parseArgs (argTokens t ++ .gt :: .semi :: r) =
      some ((t.types.map (·.toList), t.flags.map fun g => ((t.template ++ "Flags").toList, g.toList)), r) := by
  obtain ⟨x, xs, hx⟩ := List.exists_cons_of_ne_nil h.some
  have ht : ∀ y ∈ x :: xs, ArgOk y := hx ▸ h.types
  cases hf : t.flags with
  | nil =>
    rw [argTokens, hx, hf]
    exact parseArgs_only x xs ht r
  | cons f fs =>
    rw [argTokens, hx, hf]
    have := parseArgs_types x xs ht (parseArgs_flags t.template f fs r)
    simpa only [List.cons_append, List.append_assoc] using this

theorem parseUsings_cons {t : Template} (h : TemplateOk t) (n : Nat) (r : List Tok) :
    parseUsings (n + 1) (usingTokens t ++ r) =
      match parseUsings n r with
      | some (us, r) => some ((t.name.toList, useOf t) :: us, r)
      | none => none := by
  have e : usingTokens t ++ r = .using_ :: .id t.name.toList :: .assign :: .id t.template.toList :: .lt :: (argTokens t ++ .gt :: .semi :: r) := by
    simp only [usingTokens, List.append_assoc, List.cons_append, List.nil_append]
  rw [e, parseUsings, parseArgs_template h]
  have hall : ((t.flags.map fun g => ((t.template ++ "Flags").toList, g.toList)).all fun f => f.1 == t.template.toList ++ flagsSuffix) = true := by
    rw [List.all_eq_true]
    intro f hf
    obtain ⟨g, _, rfl⟩ := List.mem_map.1 hf
    rw [String.toList_append]
    exact beq_iff_eq.2 rfl
  simp only [hall, if_true, List.map_map]
  rfl

/-- The declarations of the templates. -/
theorem parse_usings (ts : List Template) (h : ∀ t ∈ ts, TemplateOk t) (r : List Tok) (hr : ∀ n, parseUsings (n + 1) r = some ([], r)) (n : Nat)
    (hn : ts.length + 1 ≤ n) :
    parseUsings n (ts.flatMap usingTokens ++ r) = some (ts.map fun t => (t.name.toList, useOf t), r) := by
  induction ts generalizing n with
  | nil =>
    obtain ⟨n, rfl⟩ : ∃ m, n = m + 1 := ⟨n - 1, by omega⟩
    exact hr n
  | cons t ts ih =>
    obtain ⟨n, rfl⟩ : ∃ m, n = m + 1 := ⟨n - 1, by omega⟩
    rw [List.flatMap_cons, List.append_assoc, parseUsings_cons (h t (List.mem_cons_self ..)),
      ih (fun u hu => h u (List.mem_cons_of_mem _ hu)) n (by simpa using hn)]
    rfl

/-! ## Variables -/

/-- The declaration of a variable. -/
def declOf (v : Var) : Decl := ⟨varTy v, v.name.toList, v.isSimpleBaseType⟩

/-- Its tokens. -/
def declTokens (d : Decl) : List Tok := tyTokens d.ty ++ [.mem d.name] ++ (if d.init then [.assign, .lbrace, .rbrace, .semi] else [.semi])

theorem parseDecls_cons (d : Decl) (n : Nat) (r : List Tok) :
    parseDecls (n + 1) (declTokens d ++ r) =
      match parseDecls n r with
      | some (ds, r) => some (d :: ds, r)
      | none => none := by
  obtain ⟨⟨c, t⟩, name, init⟩ := d
  cases c <;> cases init <;> rfl

theorem parse_decls (ds : List Decl) (r : List Tok) (n : Nat) (hn : ds.length + 1 ≤ n) :
    parseDecls n (ds.flatMap declTokens ++ .public_ :: .colon :: r) = some (ds, r) := by
  induction ds generalizing n with
  | nil =>
    obtain ⟨n, rfl⟩ : ∃ m, n = m + 1 := ⟨n - 1, by omega⟩
    rfl
  | cons d ds ih =>
    obtain ⟨n, rfl⟩ : ∃ m, n = m + 1 := ⟨n - 1, by omega⟩
    rw [List.flatMap_cons, List.append_assoc, parseDecls_cons, ih n (by simpa using hn)]

theorem decl_tokens {v : Var} (hv : VarOk v) :
    lineTokens (if v.isSimpleBaseType then "            " ++ v.typeString ++ " v_" ++ v.name ++ " = {};"
      else "            " ++ v.typeString ++ " v_" ++ v.name ++ ";") = declTokens (declOf v) := by
  rw [typeString_eq]
  cases hs : v.isSimpleBaseType
  · rw [if_neg Bool.false_ne_true, line26 (varContainer v) hv.name hv.type, declTokens, declOf, hs, List.append_assoc]
    rfl
  · rw [if_pos rfl, line25 (varContainer v) hv.name hv.type, declTokens, declOf, hs, List.append_assoc]
    rfl

theorem accessor_tokens {v : Var} (hv : VarOk v) :
    ["            // accessor for referencing variable " ++ v.name,
     "            const " ++ v.typeString ++ " & " ++ v.name ++ "() const { return this->v_" ++ v.name ++ "; }",
     "            " ++ v.typeString ++ " & " ++ v.name ++ "() { return this->v_" ++ v.name ++ "; }",
     ""].flatMap lineTokens = accessors (declOf v) := by
  rw [typeString_eq]
  simp only [List.flatMap_cons, List.flatMap_nil, line27 hv.name, line28 (varContainer v) hv.name hv.type,
    line29 (varContainer v) hv.name hv.type, line3, accessors, declOf, varTy, List.append_assoc, List.nil_append, List.append_nil]

/-! ## The header file -/

/-- The declarations of classes. -/
def fwdTokens (e : Entity) : List Tok :=
  e.dependencies.flatMap fun d => if !d.includeInHeader then [.class_, .id d.name.toList, .semi] else []

theorem fwd_tokens {e : Entity} (h : NamesOk e) :
    (e.dependencies.flatMap fun dep => if !dep.includeInHeader then ["    class " ++ dep.name ++ ";"] else []).flatMap lineTokens = fwdTokens e := by
  rw [List.flatMap_assoc, fwdTokens]
  have : ∀ ds : List Dependency, (∀ d ∈ ds, Plain d.name) →
      (ds.flatMap fun dep => (if !dep.includeInHeader then ["    class " ++ dep.name ++ ";"] else []).flatMap lineTokens) =
        ds.flatMap fun d => if !d.includeInHeader then [.class_, .id d.name.toList, .semi] else [] := by
    intro ds
    induction ds with
    | nil => intro _; rfl
    | cons d ds ih =>
      intro hd
      rw [List.flatMap_cons, List.flatMap_cons, ih fun x hx => hd x (List.mem_cons_of_mem _ hx)]
      cases !d.includeInHeader
      · rfl
      · rw [if_pos rfl, if_pos rfl, List.flatMap_cons, List.flatMap_nil, line9 (hd d (List.mem_cons_self ..)), List.append_nil]
  exact this _ h.deps

theorem forward_tokens (ds : List Dependency) (n : Name) (r : List Tok) :
    forward ((ds.flatMap fun d => if !d.includeInHeader then [.class_, .id d.name.toList, .semi] else []) ++ .class_ :: .id n :: .lbrace :: r) =
      .class_ :: .id n :: .lbrace :: r := by
  induction ds with
  | nil => rfl
  | cons d ds ih =>
    rw [List.flatMap_cons]
    cases !d.includeInHeader
    · exact ih
    · exact ih

/-- The tokens behind the beginning of the class. -/
def hdrClass (e : Entity) : List Tok :=
  e.templates.flatMap usingTokens ++ (specialMembers e.name.toList ++ ((e.vars.map declOf).flatMap declTokens ++ .public_ :: .colon ::
    ((e.vars.map declOf).flatMap accessors ++ managingClass e.name.toList ++ inlineFunctions e.name.toList ++ [.rbrace, .semi])))

/-- What the names in a description must be. -/
structure TextOk (e : Entity) : Prop extends NamesOk e where
  templates : ∀ t ∈ e.templates, TemplateOk t

theorem templates_tokens {e : Entity} (h : TextOk e) :
    (if e.templates.length > 0 then (e.templates.map fun t => t.declaration) ++ [""] else []).flatMap lineTokens =
      e.templates.flatMap usingTokens := by
  have : ∀ ts : List Template, (∀ t ∈ ts, TemplateOk t) →
      (ts.map fun t => t.declaration).flatMap lineTokens = ts.flatMap usingTokens := by
    intro ts
    induction ts with
    | nil => intro _; rfl
    | cons t ts ih =>
      intro ht
      rw [List.map_cons, List.flatMap_cons, List.flatMap_cons, ih fun x hx => ht x (List.mem_cons_of_mem _ hx),
        tokens_declaration (ht t (List.mem_cons_self ..))]
  cases ht : e.templates with
  | nil => rfl
  | cons t ts =>
    rw [if_pos (by simp), List.flatMap_append, ← ht, this _ h.templates, List.flatMap_cons, List.flatMap_nil, line3]
    simp only [List.append_nil]

theorem vars_decl {e : Entity} (h : NamesOk e) :
    (e.vars.map fun var => if var.isSimpleBaseType then "            " ++ var.typeString ++ " v_" ++ var.name ++ " = {};"
      else "            " ++ var.typeString ++ " v_" ++ var.name ++ ";").flatMap lineTokens = (e.vars.map declOf).flatMap declTokens := by
  have : ∀ vs : List Var, (∀ v ∈ vs, VarOk v) →
      (vs.map fun var => if var.isSimpleBaseType then "            " ++ var.typeString ++ " v_" ++ var.name ++ " = {};"
      else "            " ++ var.typeString ++ " v_" ++ var.name ++ ";").flatMap lineTokens = (vs.map declOf).flatMap declTokens := by
    intro vs
    induction vs with
    | nil => intro _; rfl
    | cons v vs ih =>
      intro hv
      rw [List.map_cons, List.map_cons, List.flatMap_cons, List.flatMap_cons, ih fun x hx => hv x (List.mem_cons_of_mem _ hx),
        decl_tokens (hv v (List.mem_cons_self ..))]
  exact this _ h.vars

theorem vars_access {e : Entity} (h : NamesOk e) :
    (e.vars.flatMap fun var =>
      ["            // accessor for referencing variable " ++ var.name,
       "            const " ++ var.typeString ++ " & " ++ var.name ++ "() const { return this->v_" ++ var.name ++ "; }",
       "            " ++ var.typeString ++ " & " ++ var.name ++ "() { return this->v_" ++ var.name ++ "; }",
       ""]).flatMap lineTokens = (e.vars.map declOf).flatMap accessors := by
  have : ∀ vs : List Var, (∀ v ∈ vs, VarOk v) →
      (vs.flatMap fun var =>
        ["            // accessor for referencing variable " ++ var.name,
         "            const " ++ var.typeString ++ " & " ++ var.name ++ "() const { return this->v_" ++ var.name ++ "; }",
         "            " ++ var.typeString ++ " & " ++ var.name ++ "() { return this->v_" ++ var.name ++ "; }",
         ""]).flatMap lineTokens = (vs.map declOf).flatMap accessors := by
    intro vs
    induction vs with
    | nil => intro _; rfl
    | cons v vs ih =>
      intro hv
      rw [List.flatMap_cons, List.flatMap_append, ih fun x hx => hv x (List.mem_cons_of_mem _ hx),
        accessor_tokens (hv v (List.mem_cons_self ..)), List.map_cons, List.flatMap_cons]
  exact this _ h.vars

set_option maxRecDepth 10000 in
theorem header_tokens {e : Entity} (h : TextOk e) :
    (createEntityHeader e).flatMap lineTokens = [.namespace_, .isd, .lbrace] ++ (fwdTokens e ++ .class_ :: .id e.name.toList :: .lbrace ::
      .public_ :: .colon :: hdrClass e) := by
  have hd := deps_include h.toNamesOk fun dep => dep.includeInHeader
  have he := h.name
  delta createEntityHeader
  simp only [List.flatMap_append, List.flatMap_cons, List.flatMap_nil, hd, fwd_tokens h.toNamesOk, templates_tokens h,
    vars_decl h.toNamesOk, vars_access h.toNamesOk, line1, line2, line3, line4, line5, line7, line8, line10 he, line11, line12, line13, line14,
    line15 he, line16 he, line17 he, line18 he, line19 he, line20 he, line21, line22 he, line23 he, line24, line30, line31, line32, line33,
    line34 he, line35 he, line36 he, line37 he, line38 he, line39 he, line40 he, line41 he, line42, line43, line44 he, line45, line46 he,
    line47, line48 he, line49, line50, hdrClass, specialMembers, managingClass, inlineFunctions,
    List.cons_append, List.append_assoc, List.nil_append, List.append_nil]

theorem flatMap_length_le {α β : Type} (f : α → List β) (l : List α) (h : ∀ x ∈ l, 1 ≤ (f x).length) : l.length ≤ (l.flatMap f).length := by
  induction l with
  | nil => exact Nat.zero_le _
  | cons x l ih =>
    rw [List.flatMap_cons, List.length_append, List.length_cons]
    have := ih fun y hy => h y (List.mem_cons_of_mem _ hy)
    have := h x (List.mem_cons_self ..)
    omega

/-- The header file is parsed. -/
theorem parse_header {e : Entity} (h : TextOk e) :
    parseHeader ((createEntityHeader e).flatMap lineTokens) =
      some ⟨e.name.toList, e.templates.map fun t => (t.name.toList, useOf t), e.vars.map declOf⟩ := by
  rw [header_tokens h, parseHeader]
  generalize hn : ([.namespace_, .isd, .lbrace] ++ (fwdTokens e ++ .class_ :: .id e.name.toList :: .lbrace ::
      .public_ :: .colon :: hdrClass e) : List Tok).length = n
  have l0 : (hdrClass e).length + 3 ≤ n := by
    rw [← hn]
    simp only [List.length_append, List.length_cons]
    omega
  have l1 : e.templates.length + 1 ≤ n := by
    refine Nat.le_trans ?_ l0
    have := flatMap_length_le usingTokens e.templates fun t _ => by simp [usingTokens]
    rw [hdrClass, List.length_append]
    omega
  have l2 : (e.vars.map declOf).length + 1 ≤ n := by
    refine Nat.le_trans ?_ l0
    have := flatMap_length_le declTokens (e.vars.map declOf) fun t _ => by
      simp only [declTokens, List.length_append, List.length_cons, List.length_nil]
      omega
    rw [hdrClass]
    simp only [List.length_append]
    omega
  rw [strip_append]
  simp only [Option.bind_eq_bind, Option.bind_some]
  rw [fwdTokens, forward_tokens, parseClass, hdrClass, parse_usings _ h.templates _ (fun _ => rfl) _ l1]
  simp only [Option.bind_eq_bind, Option.bind_some, strip_append, parse_decls _ _ _ l2, if_true]

end ISD.Cpp
