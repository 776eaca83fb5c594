import Verif.Tool.Spec
/-!
# `aya-tool generate`: theorems (C94)
-/
set_option linter.unusedSimpArgs false
set_option linter.unusedVariables false
namespace Verif.Tool
open Spec

/-! ## Equations -/

theorem parse_dashes (takes : Arg → Bool) (r : List Arg) : parse takes (dashes :: r) = some ([], r) := by
  rw [parse.eq_def]; exact if_pos rfl

theorem parse_value (takes : Arg → Bool) (a v : Arg) (r : List Arg) (h1 : a ≠ dashes)
    (h2 : takes a = true) (h3 : v ≠ dashes) :
    parse takes (a :: v :: r) = (parse takes r).map fun x => (.value a v :: x.1, x.2) := by
  rw [parse.eq_def]
  have h1' : a ≠ ['-', '-'] := h1
  have h3' : v ≠ ['-', '-'] := h3
  simp only [h1', h2, h3', if_true, if_false]

theorem parse_plain (takes : Arg → Bool) (a : Arg) (r : List Arg) (h1 : a ≠ dashes)
    (h2 : ¬ takes a = true) :
    parse takes (a :: r) = (parse takes r).map fun x => (.plain a :: x.1, x.2) := by
  rw [parse.eq_def]
  have h1' : a ≠ ['-', '-'] := h1
  simp only [h1', h2, if_true, if_false]
  rfl

theorem prefixes_prefix (v : Arg) (is : List Item) :
    prefixes (.value ctypesPrefix v :: is) = v :: prefixes is := by
  rw [prefixes]; exact if_pos rfl

theorem prefixes_value (a v : Arg) (is : List Item) (h : a ≠ ctypesPrefix) :
    prefixes (.value a v :: is) = prefixes is := by
  rw [prefixes]; exact if_neg h

theorem others_prefix (v : Arg) (is : List Item) :
    others (.value ctypesPrefix v :: is) = others is := by
  have h0 : ¬ (ctypesPrefix ≠ "--ctypes-prefix".toList) := fun h => h rfl
  have h : keeps (.value ctypesPrefix v) = false := decide_eq_false h0
  rw [others, List.filter_cons, h]
  rfl

theorem others_congr (i : Item) (a b : List Item) (h : others a = others b) :
    others (i :: a) = others (i :: b) := by
  simp only [others, List.filter_cons] at h ⊢
  rw [h]

theorem allow_ne : allowlistType ≠ ctypesPrefix := by decide
theorem allow_dashes : allowlistType ≠ dashes := by decide
theorem ctypes_dashes : ctypesPrefix ≠ dashes := by decide

theorem others_value (a v : Arg) (is : List Item) (h : a ≠ ctypesPrefix) :
    others (.value a v :: is) = .value a v :: others is := by
  have h : keeps (.value a v) = true := decide_eq_true h
  rw [others, List.filter_cons, h]
  rfl

/-! ## The prefix -/

theorem extract_other (x : Arg) (s : List Arg) (hx : x ≠ ctypesPrefix) :
    extractCtypesPrefix (x :: s) = (x :: (extractCtypesPrefix s).1, (extractCtypesPrefix s).2) := by
  simp only [extractCtypesPrefix, position, hx, if_false]
  rcases e : position ctypesPrefix s with _ | i
  · simp
  · simp only [Option.map_some, List.length_cons]
    by_cases h : i < s.length - 1
    · have h' : i + 1 < s.length + 1 - 1 := by omega
      simp only [h, h', if_true]
      simp
    · have h' : ¬ i + 1 < s.length + 1 - 1 := by omega
      simp only [h, h', if_false]

theorem extract_prefix (v : Arg) (s : List Arg) :
    extractCtypesPrefix (ctypesPrefix :: v :: s) = (s, some v) := by
  simp [extractCtypesPrefix, position]

theorem extract_none (s : List Arg) (h : ctypesPrefix ∉ s) :
    extractCtypesPrefix s = (s, none) := by
  induction s with
  | nil => rfl
  | cons x s ih =>
    simp only [List.mem_cons, not_or] at h
    rw [extract_other x s (fun e => h.1 e.symm), ih h.2]

theorem parse_extract (takes : Arg → Bool) (ht : takes ctypesPrefix = true) (s : List Arg)
    (is : List Item) (c : List Arg) (hp : parse takes s = some (is, c)) (hn : Named is c)
    (ha : Apart is) :
    (extractCtypesPrefix s).2 = (prefixes is).head? ∧
    ∃ is', parse takes (extractCtypesPrefix s).1 = some (is', c) ∧ others is' = others is ∧
      prefixes is' = (prefixes is).tail := by
  fun_induction parse takes s generalizing is c with
  | case1 => cases hp; exact ⟨rfl, [], rfl, rfl, rfl⟩
  | case2 rest =>
    cases hp
    have h1 : ctypesPrefix ∉ (['-', '-'] :: rest) := by
      simp only [List.mem_cons, not_or]
      exact ⟨by decide, hn.2⟩
    rw [extract_none _ h1]
    exact ⟨rfl, [], parse_dashes takes _, rfl, rfl⟩
  | case3 => cases hp
  | case4 a ha1 ha2 v rest' hv ih =>
    rcases e : parse takes rest' with _ | ⟨is1, c1⟩
    · rw [e] at hp; cases hp
    · rw [e] at hp; cases hp
      by_cases hx : a = ctypesPrefix
      · subst hx
        rw [extract_prefix]
        rw [prefixes_prefix, others_prefix]
        exact ⟨rfl, is1, e, rfl, rfl⟩
      · have hv2 : v ≠ ctypesPrefix := hn.1 a v (by simp)
        rw [extract_other a _ hx, extract_other v _ hv2]
        obtain ⟨h1, is', h2, h3, h4⟩ := ih is1 c e
          ⟨fun n v h => hn.1 n v (by simp [h]), hn.2⟩ (fun b h => ha b (by simp [h]))
        rw [prefixes_value _ _ _ hx]
        refine ⟨h1, .value a v :: is', ?_, others_congr _ _ _ h3, ?_⟩
        · rw [parse_value takes a v _ ha1 ha2 hv, h2]; rfl
        · rw [prefixes_value _ _ _ hx]; exact h4
  | case5 => cases hp
  | case6 a rest ha1 ha2 ih =>
    rcases e : parse takes rest with _ | ⟨is1, c1⟩
    · rw [e] at hp; cases hp
    · rw [e] at hp; cases hp
      have hx : a ≠ ctypesPrefix := fun h => ha2 (h ▸ ht)
      rw [extract_other a _ hx]
      obtain ⟨h1, is', h2, h3, h4⟩ := ih is1 c e
        ⟨fun n v h => hn.1 n v (by simp [h]), hn.2⟩ (fun b h => ha b (by simp [h]))
      have hx' := ha a (by simp)
      refine ⟨?_, .plain a :: is', ?_, ?_, ?_⟩
      · simp only [prefixes, hx', if_false]; exact h1
      · rw [parse_plain takes a _ ha1 ha2, h2]; rfl
      · exact others_congr _ _ _ h3
      · simp only [prefixes, hx', if_false]; exact h4

/-! ## Combining -/

theorem parse_append (takes : Arg → Bool) (l rest : List Arg) (is : List Item)
    (hp : parse takes l = some (is, [])) (hd : dashes ∉ l) :
    parse takes (l ++ rest) = (parse takes rest).map fun x => (is ++ x.1, x.2) := by
  fun_induction parse takes l generalizing is with
  | case1 => cases hp; simp
  | case2 r => exact absurd (by simp [dashes]) hd
  | case3 => cases hp
  | case4 a ha1 ha2 v rest' hv ih =>
    rcases e : parse takes rest' with _ | ⟨is1, c1⟩
    · rw [e] at hp; cases hp
    · rw [e] at hp; cases hp
      rw [List.cons_append, List.cons_append, parse_value takes a v _ ha1 ha2 hv,
        ih is1 e (fun h => hd (by simp [h]))]
      simp [Option.map_map, Function.comp_def]
  | case5 => cases hp
  | case6 a r ha1 ha2 ih =>
    rcases e : parse takes r with _ | ⟨is1, c1⟩
    · rw [e] at hp; cases hp
    · rw [e] at hp; cases hp
      rw [List.cons_append, parse_plain takes a _ ha1 ha2, ih is1 e (fun h => hd (by simp [h]))]
      simp [Option.map_map, Function.comp_def]

/-- The user's part, with the library's arguments for clang put in front of the user's. -/
theorem parse_split (takes : Arg → Bool) (s : List Arg) (is : List Item) (c x : List Arg)
    (hp : parse takes s = some (is, c)) :
    parse takes ((splitDashes s).1 ++ dashes :: (x ++ (splitDashes s).2.getD []))
      = some (is, x ++ c) := by
  fun_induction parse takes s generalizing is c with
  | case1 => cases hp; rw [splitDashes]; exact parse_dashes takes _
  | case2 r =>
    cases hp
    have : splitDashes (['-', '-'] :: r) = ([], some r) := if_pos rfl
    rw [this]; exact parse_dashes takes _
  | case3 => cases hp
  | case4 a ha1 ha2 v rest' hv ih =>
    rcases e : parse takes rest' with _ | ⟨is1, c1⟩
    · rw [e] at hp; cases hp
    · rw [e] at hp; cases hp
      have ha1' : a ≠ dashes := ha1
      have hv' : v ≠ dashes := hv
      simp only [splitDashes, ha1', hv', if_false, List.cons_append]
      rw [parse_value takes a v _ ha1 ha2 hv, ih is1 c e]; rfl
  | case5 => cases hp
  | case6 a r ha1 ha2 ih =>
    rcases e : parse takes r with _ | ⟨is1, c1⟩
    · rw [e] at hp; cases hp
    · rw [e] at hp; cases hp
      have ha1' : a ≠ dashes := ha1
      simp only [splitDashes, ha1', if_false, List.cons_append]
      rw [parse_plain takes a _ ha1 ha2, ih is1 c e]; rfl

theorem split_flags (o c : List Arg) (h : dashes ∉ o) :
    splitDashes (o ++ dashes :: c) = (o, some c) := by
  induction o with
  | nil => simp [splitDashes]
  | cons x o ih =>
    simp only [List.mem_cons, not_or] at h
    have hx : x ≠ dashes := fun e => h.1 e.symm
    simp only [List.cons_append, splitDashes, hx, if_false, ih h.2]

theorem parse_types (takes : Arg → Bool) (ht : takes allowlistType = true) (types : List Arg)
    (h : dashes ∉ types) :
    parse takes (types.flatMap fun t => [allowlistType, t])
      = some (types.map (Item.value allowlistType), []) := by
  induction types with
  | nil => rfl
  | cons t ts ih =>
    simp only [List.mem_cons, not_or] at h
    rw [List.flatMap_cons, List.cons_append, List.cons_append, List.nil_append,
      parse_value takes _ t _ allow_dashes ht (fun e => h.1 e.symm), ih h.2]
    rfl

theorem prefixes_append (a b : List Item) : prefixes (a ++ b) = prefixes a ++ prefixes b := by
  induction a with
  | nil => rfl
  | cons i is ih =>
    cases i with
    | plain x => simp only [List.cons_append, prefixes, ih]; split <;> rfl
    | value n v => simp only [List.cons_append, prefixes, ih]; split <;> rfl

theorem others_append (a b : List Item) : others (a ++ b) = others a ++ others b := by
  simp only [others, List.filter_append]

theorem prefixes_types (types : List Arg) : prefixes (types.map (Item.value allowlistType)) = [] := by
  induction types with
  | nil => rfl
  | cons t ts ih =>
    rw [List.map_cons, prefixes_value _ _ _ allow_ne, ih]

theorem others_types (types : List Arg) :
    others (types.map (Item.value allowlistType)) = types.map (Item.value allowlistType) := by
  induction types with
  | nil => rfl
  | cons t ts ih => rw [List.map_cons, others_value _ _ _ allow_ne, ih]

/-- Everything the library and the user say, however the user's options end. -/
theorem parse_all (takes : Arg → Bool) (fixed : List Arg) (F : List Item) (p : Arg)
    (types s' : List Arg) (is' : List Item) (c clang : List Arg)
    (htc : takes ctypesPrefix = true) (hta : takes allowlistType = true)
    (hF : parse takes fixed = some (F, [])) (hFd : dashes ∉ fixed) (htd : dashes ∉ types)
    (hp : p ≠ dashes) (hs : parse takes s' = some (is', c)) (hc : clang ≠ []) :
    parse takes (combineFlags (Builder.flags ⟨fixed, p, types, clang⟩) s')
      = some (F ++ .value ctypesPrefix p :: types.map (Item.value allowlistType) ++ is',
          clang ++ c) := by
  have hne : clang.isEmpty = false := by cases clang <;> simp_all
  have hp2 : parse takes [ctypesPrefix, p] = some ([.value ctypesPrefix p], []) := by
    rw [parse_value takes _ p _ ctypes_dashes htc hp]; rfl
  have hd2 : dashes ∉ [ctypesPrefix, p] := by
    simp only [List.mem_cons, List.not_mem_nil, or_false, not_or]
    exact ⟨by decide, fun e => hp e.symm⟩
  have hd3 : dashes ∉ types.flatMap (fun t => [allowlistType, t]) := by
    simp only [List.mem_flatMap, not_exists, not_and]
    intro t ht hm
    simp only [List.mem_cons, List.not_mem_nil, or_false] at hm
    rcases hm with hm | hm
    · exact absurd hm (by decide)
    · exact htd (hm ▸ ht)
  have hd : dashes ∉ fixed ++ [ctypesPrefix, p] ++ types.flatMap (fun t => [allowlistType, t]) := by
    simp only [List.mem_append, not_or]
    exact ⟨⟨hFd, hd2⟩, hd3⟩
  have hx : (clang ++ (splitDashes s').2.getD []).isEmpty = false := by
    cases clang <;> simp_all
  simp only [combineFlags, Builder.flags, hne, Bool.false_eq_true, if_false, split_flags _ _ hd,
    Option.getD_some, hx]
  rw [List.append_assoc, List.append_assoc, List.append_assoc, parse_append takes fixed _ F hF hFd,
    parse_append takes _ _ _ hp2 hd2, parse_append takes _ _ _ (parse_types takes hta types htd) hd3,
    parse_split takes s' is' c clang hs]
  simp

/-- **C94 (partial).** For all options of the library (`fixed`), all types and all flags of the user
that `bindgen` can read: what `bindgen` reads from its command line is everything the library asks
for, a request for each type, in order, and everything the user asks for, in order; the prefix for C
types is the one the user asks for, else the library's, and is there once; clang is given the
library's argument and then the user's. Missing: flags with `--ctypes-prefix=...`, or with the word
`--ctypes-prefix` as a value or among the arguments for clang (`C94_joined_violated`,
`C94_clang_violated`). -/
theorem C94_command_partial (takes : Arg → Bool) (fixed : List Arg) (F : List Item)
    (types user : List Arg) (U : List Item) (C : List Arg)
    (htc : takes "--ctypes-prefix".toList = true) (hta : takes "--allowlist-type".toList = true)
    (hF : parse takes fixed = some (F, [])) (hFd : "--".toList ∉ fixed) (hF0 : prefixes F = [])
    (htd : "--".toList ∉ types)
    (hU : parse takes user = some (U, C)) (hn : Named U C) (ha : Apart U)
    (h1 : (prefixes U).length ≤ 1) :
    ∃ is, parse takes (bindgenFlags fixed types user)
        = some (is, "-Wno-unknown-attributes".toList :: C) ∧
      others is = others F ++ types.map (Item.value "--allowlist-type".toList) ++ others U ∧
      prefixes is = [(prefixes U).headD "::aya_ebpf::cty".toList] := by
  obtain ⟨he, is', hs, ho, hpx⟩ := parse_extract takes htc user U C hU hn ha
  have hval : ∀ p, (prefixes U).head? = some p → p ≠ dashes := by
    clear hn h1 he is' hs ho hpx
    fun_induction parse takes user generalizing U C with
    | case1 => cases hU; intro p h; simp [prefixes] at h
    | case2 r => cases hU; intro p h; simp [prefixes] at h
    | case3 => cases hU
    | case4 a ha1 ha2 v rest' hv ih =>
      rcases e : parse takes rest' with _ | ⟨is1, c1⟩
      · rw [e] at hU; cases hU
      · rw [e] at hU; cases hU
        intro p h
        simp only [prefixes] at h
        split at h
        · simp only [List.head?_cons, Option.some.injEq] at h; subst h; exact hv
        · exact ih is1 C e (fun b h => ha b (by simp [h])) p h
    | case5 => cases hU
    | case6 a r ha1 ha2 ih =>
      rcases e : parse takes r with _ | ⟨is1, c1⟩
      · rw [e] at hU; cases hU
      · rw [e] at hU; cases hU
        intro p h
        simp only [prefixes] at h
        split at h
        · rename_i h16
          exact absurd h16 (ha a (by simp))
        · exact ih is1 C e (fun b h => ha b (by simp [h])) p h
  have hdef : "::aya_ebpf::cty".toList ≠ dashes := by decide
  have hb : bindgenFlags fixed types user
      = combineFlags (Builder.flags ⟨fixed, (prefixes U).headD "::aya_ebpf::cty".toList, types,
          ["-Wno-unknown-attributes".toList]⟩) (extractCtypesPrefix user).1 := by
    simp only [bindgenFlags, builderFor, bpfBuilder, he]
    rcases prefixes U with _ | ⟨p, ps⟩ <;> rfl
  have hp : (prefixes U).headD "::aya_ebpf::cty".toList ≠ dashes := by
    rcases e : prefixes U with _ | ⟨p, ps⟩
    · exact hdef
    · exact hval p (by rw [e]; rfl)
  have htl : (prefixes U).tail = [] := by
    rcases e : prefixes U with _ | ⟨p, ps⟩
    · rfl
    · rw [e] at h1; simp at h1; simpa using h1
  refine ⟨F ++ .value ctypesPrefix ((prefixes U).headD "::aya_ebpf::cty".toList)
      :: types.map (Item.value allowlistType) ++ is', ?_, ?_, ?_⟩
  · rw [hb]
    exact parse_all takes fixed F _ types _ is' C _ htc hta hF hFd htd hp hs (by simp)
  · rw [List.append_assoc, others_append, List.cons_append, others_prefix, others_append,
      others_types, ho, List.append_assoc]; rfl
  · rw [List.append_assoc, prefixes_append, List.cons_append, prefixes_prefix, prefixes_append,
      prefixes_types, hF0, hpx, htl]; rfl

/-- Options of the library as `bindgen` prints them, and which options take a value. -/
def someFixed : List Arg := ["--default-enum-style".toList, "consts".toList, "--use-core".toList]
def someTakes (a : Arg) : Bool :=
  a = ctypesPrefix || a = allowlistType || a = "--default-enum-style".toList
    || a = "--raw-line".toList

/- A user asks for a line, a prefix, a switch, and an include path. -/
example :
    let user := ["--raw-line".toList, "x".toList, "--ctypes-prefix".toList, "cty".toList,
      "--verbose".toList, "--".toList, "-I".toList, "inc".toList]
    (parse someTakes someFixed).isSome = true ∧
    parse someTakes user = some ([.value "--raw-line".toList "x".toList,
      .value "--ctypes-prefix".toList "cty".toList, .plain "--verbose".toList],
      ["-I".toList, "inc".toList]) ∧
    bindgenFlags someFixed ["task_struct".toList] user
      = ["--default-enum-style".toList, "consts".toList, "--use-core".toList,
         "--ctypes-prefix".toList, "cty".toList, "--allowlist-type".toList, "task_struct".toList,
         "--raw-line".toList, "x".toList, "--verbose".toList, "--".toList,
         "-Wno-unknown-attributes".toList, "-I".toList, "inc".toList] := by
  decide +kernel

example : Named [.value "--raw-line".toList "x".toList,
      .value "--ctypes-prefix".toList "cty".toList, .plain "--verbose".toList]
      ["-I".toList, "inc".toList] ∧
    Apart [.value "--raw-line".toList "x".toList,
      .value "--ctypes-prefix".toList "cty".toList, .plain "--verbose".toList] := by
  refine ⟨⟨?_, by decide +kernel⟩, ?_⟩
  · intro n v h
    simp only [List.mem_cons, List.not_mem_nil, or_false, Item.value.injEq, reduceCtorEq] at h
    rcases h with ⟨_, rfl⟩ | ⟨_, rfl⟩ <;> decide +kernel
  · intro a h
    simp only [List.mem_cons, List.not_mem_nil, or_false, Item.plain.injEq, reduceCtorEq,
      false_or] at h
    subst h; decide +kernel

/-- **C94, refuted for `--ctypes-prefix=...`.** Whatever prefix the user gives in this form, the
library's is given as well, and `bindgen`, where an option may be given once, refuses. -/
theorem C94_joined_violated (takes : Arg → Bool) (fixed : List Arg) (F : List Item)
    (types : List Arg) (v : Arg)
    (htc : takes "--ctypes-prefix".toList = true) (hta : takes "--allowlist-type".toList = true)
    (htj : takes ("--ctypes-prefix=".toList ++ v) = false)
    (hF : parse takes fixed = some (F, [])) (hFd : "--".toList ∉ fixed) (hF0 : prefixes F = [])
    (htd : "--".toList ∉ types) :
    ∃ U is, parse takes ["--ctypes-prefix=".toList ++ v] = some (U, []) ∧ prefixes U = [v] ∧
      parse takes (bindgenFlags fixed types ["--ctypes-prefix=".toList ++ v])
        = some (is, ["-Wno-unknown-attributes".toList]) ∧
      prefixes is = ["::aya_ebpf::cty".toList, v] := by
  have hj1 : "--ctypes-prefix=".toList ++ v ≠ dashes := by
    intro h
    have := congrArg (fun l => l.length) h
    simp [dashes] at this
  have hj2 : "--ctypes-prefix=".toList ++ v ≠ ctypesPrefix := by
    intro h; rw [h, show ctypesPrefix = "--ctypes-prefix".toList from rfl, htc] at htj; cases htj
  have hp : parse takes ["--ctypes-prefix=".toList ++ v]
      = some ([.plain ("--ctypes-prefix=".toList ++ v)], []) := by
    rw [parse_plain takes _ _ hj1 (by rw [htj]; simp)]; rfl
  have hpre : prefixes [.plain ("--ctypes-prefix=".toList ++ v)] = [v] := by
    simp [prefixes]
  refine ⟨[.plain ("--ctypes-prefix=".toList ++ v)],
    F ++ .value ctypesPrefix "::aya_ebpf::cty".toList :: types.map (Item.value allowlistType)
      ++ [.plain ("--ctypes-prefix=".toList ++ v)], hp, hpre, ?_, ?_⟩
  · have hb : bindgenFlags fixed types ["--ctypes-prefix=".toList ++ v]
        = combineFlags (Builder.flags ⟨fixed, "::aya_ebpf::cty".toList, types,
            ["-Wno-unknown-attributes".toList]⟩) ["--ctypes-prefix=".toList ++ v] := by
      have hx : extractCtypesPrefix ["--ctypes-prefix=".toList ++ v]
          = (["--ctypes-prefix=".toList ++ v], none) := by
        apply extract_none
        intro h
        exact hj2 (List.mem_singleton.mp h).symm
      simp only [bindgenFlags, builderFor, bpfBuilder, hx]
      rfl
    rw [hb]
    exact parse_all takes fixed F _ types _ _ [] _ htc hta hF hFd htd (by decide) hp (by simp)
  · rw [List.append_assoc, prefixes_append, List.cons_append, prefixes_prefix, prefixes_append,
      prefixes_types, hF0, hpre]; rfl

/-- **C94, refuted for arguments of clang.** A word `--ctypes-prefix` after `--` is meant for clang; it
and the word after it are taken from clang's arguments, and the prefix is changed. -/
theorem C94_clang_violated (takes : Arg → Bool) (fixed : List Arg) (F : List Item)
    (types : List Arg) (v : Arg)
    (htc : takes "--ctypes-prefix".toList = true) (hta : takes "--allowlist-type".toList = true)
    (hF : parse takes fixed = some (F, [])) (hFd : "--".toList ∉ fixed) (hF0 : prefixes F = [])
    (htd : "--".toList ∉ types) (hv : v ≠ "--".toList) :
    ∃ is, parse takes ["--".toList, "--ctypes-prefix".toList, v]
        = some ([], ["--ctypes-prefix".toList, v]) ∧
      parse takes (bindgenFlags fixed types ["--".toList, "--ctypes-prefix".toList, v])
        = some (is, ["-Wno-unknown-attributes".toList]) ∧
      prefixes is = [v] := by
  have hx : extractCtypesPrefix ["--".toList, "--ctypes-prefix".toList, v] = ([dashes], some v) := by
    rw [extract_other "--".toList _ (by decide)]
    have := extract_prefix v []
    rw [show ["--ctypes-prefix".toList, v] = ctypesPrefix :: v :: [] from rfl, this]
    rfl
  refine ⟨F ++ .value ctypesPrefix v :: types.map (Item.value allowlistType) ++ [],
    parse_dashes takes _, ?_, ?_⟩
  · have hb : bindgenFlags fixed types ["--".toList, "--ctypes-prefix".toList, v]
        = combineFlags (Builder.flags ⟨fixed, v, types, ["-Wno-unknown-attributes".toList]⟩)
            [dashes] := by
      simp only [bindgenFlags, builderFor, bpfBuilder, hx]
      rfl
    rw [hb]
    exact parse_all takes fixed F _ types _ _ [] _ htc hta hF hFd htd hv (parse_dashes takes [])
      (by simp)
  · rw [List.append_assoc, prefixes_append, List.cons_append, prefixes_prefix, prefixes_append,
      prefixes_types, hF0]; rfl

/-! ## Input and result -/

/-- **C94.** For all inputs: `generate` reads the header made of the BTF, or the file given, runs
`bindgen` on a file of that content with the flags of `C94_command_partial`, and gives what `bindgen`
said; every failure is reported as what it is. It panics if a name of a header, or what a command said,
is not UTF-8, and in no other case. -/
theorem C94_result (w : World) (fixed : List Arg) (i : Input) (types flags : List Arg) (r : Res) :
    generate w fixed i types flags = r ↔
      Ends w (fun name content => w.bindgen w.tmp name content
        ((w.tmp ++ '/' :: name) :: bindgenFlags fixed types flags)) i r := by
  constructor
  · rintro rfl
    unfold generate
    rcases eh : header w i with r | ⟨content, name⟩
    · simp only []
      cases i with
      | btf path =>
        simp only [header, cHeaderFromBtf] at eh
        rcases eb : w.bpftool ["btf".toList, "dump".toList, "file".toList, path, "format".toList,
            "c".toList] with e | ⟨ok, out⟩
        · rw [eb] at eh; cases eh; exact .noBpftool path e rfl eb
        · rw [eb] at eh
          cases ok with
          | true =>
            cases out with
            | some s => simp at eh
            | none => simp at eh; cases eh; exact .dumpNotUtf8 path rfl eb
          | false => simp at eh; cases eh; exact .dumpFailed path out rfl eb
      | header path name =>
        simp only [header] at eh
        rcases er : w.read path with e | content
        · rw [er] at eh; cases eh; exact .unreadable path name e rfl er
        · rw [er] at eh
          cases name with
          | some n => cases eh
          | none => cases eh; exact .nameNotUtf8 path content rfl er
    · have hh : Header w i content name := by
        cases i with
        | btf path =>
          simp only [header, cHeaderFromBtf] at eh
          rcases eb : w.bpftool ["btf".toList, "dump".toList, "file".toList, path, "format".toList,
              "c".toList] with e | ⟨ok, out⟩
          · rw [eb] at eh; cases eh
          · rw [eb] at eh
            cases ok with
            | true =>
              cases out with
              | some s => simp at eh; obtain ⟨rfl, rfl⟩ := eh; exact .btf path _ eb
              | none => simp at eh
            | false => simp at eh
        | header path name =>
          simp only [header] at eh
          rcases er : w.read path with e | content
          · rw [er] at eh; cases eh
          · rw [er] at eh
            cases name with
            | some n => cases eh; exact .header path _ _ er
            | none => cases eh
      simp only []
      rcases eb : w.bindgen w.tmp name content
          ((w.tmp ++ '/' :: name) :: bindgenFlags fixed types flags) with e | ⟨ok, out⟩
      · exact .noBindgen content name e hh eb
      · cases ok with
        | true =>
          cases out with
          | some b => exact .bindings content name b hh eb
          | none => exact .notUtf8 content name hh eb
        | false => exact .failed content name out hh eb
  · have hhead : ∀ content name, Header w i content name → header w i = .ok (content, name) := by
      intro content name h
      cases h with
      | btf path c hb => simp only [header, cHeaderFromBtf, hb]; rfl
      | header path c n hr => simp only [header, hr]
    intro h
    cases h with
    | bindings content name b hh hr => simp only [generate, hhead _ _ hh, hr]; rfl
    | notUtf8 content name hh hr => simp only [generate, hhead _ _ hh, hr]; rfl
    | failed content name out hh hr => simp only [generate, hhead _ _ hh, hr]; rfl
    | noBindgen content name e hh hr => simp only [generate, hhead _ _ hh, hr]
    | unreadable path name e hi hr => subst hi; simp only [generate, header, hr]
    | nameNotUtf8 path content hi hr => subst hi; simp only [generate, header, hr]
    | noBpftool path e hi hr => subst hi; simp only [generate, header, cHeaderFromBtf, hr]
    | dumpFailed path out hi hr => subst hi; simp only [generate, header, cHeaderFromBtf, hr]; rfl
    | dumpNotUtf8 path hi hr => subst hi; simp only [generate, header, cHeaderFromBtf, hr]; rfl

/-- A header `/src/a.h` that includes `"b.h"`, which lies beside it: clang looks in the directory of
the including file, so `bindgen` succeeds for files in `/src` and fails elsewhere. -/
def relativeWorld : World where
  read p := if p = "/src/a.h".toList then .ok "#include \"b.h\"".toList else .error 2
  bpftool _ := .error 2
  tmp := "/tmp/x".toList
  bindgen dir _ content _ :=
    if content = "#include \"b.h\"".toList ∧ dir ≠ "/src".toList then .ok ⟨false, some []⟩
    else .ok ⟨true, some "pub struct b;".toList⟩

/-- **C94, refuted for headers that include others.** `bindgen` run on the header succeeds, but
`generate` fails for it, whatever the types and flags: the header is moved away from the files it
includes. -/
theorem C94_relative_violated (fixed types flags : List Arg) :
    (∀ args, relativeWorld.bindgen "/src".toList "a.h".toList "#include \"b.h\"".toList args
      = .ok ⟨true, some "pub struct b;".toList⟩) ∧
    generate relativeWorld fixed (.header "/src/a.h".toList (some "a.h".toList)) types flags
      = .err (.bindgenExit ⟨false, some []⟩) := by
  constructor
  · intro args; simp only [relativeWorld]; exact if_neg (by decide +kernel)
  · rw [C94_result]
    exact .failed "#include \"b.h\"".toList "a.h".toList (some [])
      (.header _ _ _ (by decide +kernel)) (by simp only [relativeWorld]; exact if_pos (by decide +kernel))

/- The header that can be read alone: its bindings. -/
example : generate { relativeWorld with tmp := "/src".toList } someFixed
    (.header "/src/a.h".toList (some "a.h".toList)) [] [] = .ok "pub struct b;".toList := by
  decide +kernel

/- A header whose name is not UTF-8. -/
example : generate relativeWorld someFixed (.header "/src/a.h".toList none) [] [] = .panic := by
  decide +kernel

end Verif.Tool
