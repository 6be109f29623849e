import Verif.Spec.Template
import Verif.Lemmas.Names

set_option linter.unusedSectionVars false
set_option linter.unusedVariables false

namespace Wam
open Spec

/-! ### What `str.format` does -/

theorem formatTemplate_piece {s rest : List Char} {p : Piece} (a : TemplateArgs)
    (h : parseTemplate .text s = (do return p :: (← parseTemplate .text rest))) :
    formatTemplate s a = (do
      let pieces ← parseTemplate .text rest
      let x ← renderPiece a p
      return x ++ (← renderPieces a pieces)) := by
  unfold formatTemplate
  rw [h]
  cases parseTemplate .text rest <;> rfl

theorem format_ok_cons {s rest x : List Char} {p : Piece} {a : TemplateArgs}
    (h : parseTemplate .text s = (do return p :: (← parseTemplate .text rest)))
    (hx : renderPiece a p = .ok x) :
    formatTemplate s a = (formatTemplate rest a).map fun r => x ++ r := by
  rw [formatTemplate_piece a h]
  unfold formatTemplate
  cases parseTemplate .text rest with
  | error e => rfl
  | ok ps =>
    simp only [bind, Except.bind, hx]
    cases renderPieces a ps <;> rfl

theorem parse_name (acc name rest : List Char) (h : ∀ c ∈ name, c ≠ '{' ∧ c ≠ '}' ∧ c ≠ ':') :
    parseTemplate (.name acc) (name ++ '}' :: rest) =
      (do return .field (acc ++ name) [] :: (← parseTemplate .text rest)) := by
  induction name generalizing acc with
  | nil => rw [List.nil_append, parseTemplate, List.append_nil]
  | cons c name ih =>
    obtain ⟨h1, h2, h3⟩ := h c List.mem_cons_self
    rw [List.cons_append, parseTemplate, ih _ fun c hc => h c (List.mem_cons_of_mem _ hc)]
    · simp
    · exact h2
    · exact h3
    · exact h1

theorem parse_spec (name acc spec rest : List Char) (h : ∀ c ∈ spec, c ≠ '{' ∧ c ≠ '}') :
    parseTemplate (.spec name acc) (spec ++ '}' :: rest) =
      (do return .field name (acc ++ spec) :: (← parseTemplate .text rest)) := by
  induction spec generalizing acc with
  | nil => rw [List.nil_append, parseTemplate, List.append_nil]
  | cons c spec ih =>
    obtain ⟨h1, h2⟩ := h c List.mem_cons_self
    rw [List.cons_append, parseTemplate, ih _ fun c hc => h c (List.mem_cons_of_mem _ hc)]
    · simp
    · exact h2
    · exact h1

theorem parse_name_spec (acc name spec rest : List Char) (h : ∀ c ∈ name, c ≠ '{' ∧ c ≠ '}' ∧ c ≠ ':')
    (hs : ∀ c ∈ spec, c ≠ '{' ∧ c ≠ '}') :
    parseTemplate (.name acc) (name ++ ':' :: (spec ++ '}' :: rest)) =
      (do return .field (acc ++ name) spec :: (← parseTemplate .text rest)) := by
  induction name generalizing acc with
  | nil =>
    rw [List.nil_append, parseTemplate, List.append_nil, parse_spec _ _ _ _ hs, List.nil_append]
  | cons c name ih =>
    obtain ⟨h1, h2, h3⟩ := h c List.mem_cons_self
    rw [List.cons_append, parseTemplate, ih _ fun c hc => h c (List.mem_cons_of_mem _ hc)]
    · simp
    · exact h2
    · exact h3
    · exact h1

theorem parse_open (name rest : List Char) (h : ∀ s, name ++ rest ≠ '{' :: s) :
    parseTemplate .text ('{' :: (name ++ rest)) = parseTemplate (.name []) (name ++ rest) := by
  rw [parseTemplate]
  intro s hs; exact h s hs

/-- **C80** Text without braces is copied. -/
theorem C80_text (a : TemplateArgs) (c : Char) (rest : List Char) (h1 : c ≠ '{') (h2 : c ≠ '}') :
    formatTemplate (c :: rest) a = (formatTemplate rest a).map fun r => c :: r := by
  refine format_ok_cons (p := .text [c]) (x := [c]) ?_ rfl
  rw [parseTemplate]
  all_goals simp_all

/-- **C80** `{variable}` and `{levtype}` are replaced by the name of the variable and the marker of the type of levels. -/
theorem C80_variable (a : TemplateArgs) (rest : List Char) :
    formatTemplate ("{variable}".toList ++ rest) a = (formatTemplate rest a).map (fun r => a.var ++ r) ∧
    formatTemplate ("{levtype}".toList ++ rest) a = (formatTemplate rest a).map (fun r => a.levtype ++ r) := by
  constructor
  · refine format_ok_cons (p := .field "variable".toList []) ?_ (by rfl)
    show parseTemplate .text ('{' :: ("variable".toList ++ '}' :: rest)) = _
    rw [parse_open _ _ (by intro s h; cases h), parse_name [] _ _ (by decide)]; rfl
  · refine format_ok_cons (p := .field "levtype".toList []) ?_ (by rfl)
    show parseTemplate .text ('{' :: ("levtype".toList ++ '}' :: rest)) = _
    rw [parse_open _ _ (by intro s h; cases h), parse_name [] _ _ (by decide)]; rfl

/-- **C80** A doubled brace is a brace; a single closing brace in the text is a `ValueError`, and so is an opening brace
that is never closed. -/
theorem C80_braces (a : TemplateArgs) (rest : List Char) :
    formatTemplate ("{{".toList ++ rest) a = (formatTemplate rest a).map (fun r => '{' :: r) ∧
    formatTemplate ("}}".toList ++ rest) a = (formatTemplate rest a).map (fun r => '}' :: r) ∧
    (rest.head? ≠ some '}' → formatTemplate ('}' :: rest) a = .error .valueError) ∧
    (rest.head? ≠ some '{' → '}' ∉ rest → formatTemplate ('{' :: rest) a = .error .valueError) := by
  refine ⟨format_ok_cons (p := .text ['{']) (by rw [show "{{".toList ++ rest = '{' :: '{' :: rest from rfl, parseTemplate])
    rfl, format_ok_cons (p := .text ['}']) (by rw [show "}}".toList ++ rest = '}' :: '}' :: rest from rfl, parseTemplate])
    rfl, fun h => ?_, fun h h' => ?_⟩
  · unfold formatTemplate
    rw [parseTemplate]
    · rfl
    · intro s hs; subst hs; exact h rfl
  · have hspec : ∀ (l name acc : List Char), '}' ∉ l → parseTemplate (.spec name acc) l = .error .valueError := by
      intro l
      induction l with
      | nil => intro name acc _; rw [parseTemplate]
      | cons c l ih =>
        intro name acc hl
        have h2 : c ≠ '}' := fun e => hl (by rw [e]; exact List.mem_cons_self)
        by_cases h1 : c = '{'
        · subst h1; rw [parseTemplate]
        · rw [parseTemplate]
          · exact ih _ _ fun e => hl (List.mem_cons_of_mem _ e)
          · exact h2
          · exact h1
    have hname : ∀ (l acc : List Char), '}' ∉ l → parseTemplate (.name acc) l = .error .valueError := by
      intro l
      induction l with
      | nil => intro acc _; rw [parseTemplate]
      | cons c l ih =>
        intro acc hl
        have hl' : '}' ∉ l := fun e => hl (List.mem_cons_of_mem _ e)
        have h2 : c ≠ '}' := fun e => hl (by rw [e]; exact List.mem_cons_self)
        by_cases h3 : c = ':'
        · subst h3; rw [parseTemplate]; exact hspec _ _ _ hl'
        by_cases h1 : c = '{'
        · subst h1; rw [parseTemplate]
        · rw [parseTemplate]
          · exact ih _ hl'
          · exact h2
          · exact h3
          · exact h1
    unfold formatTemplate
    rw [parseTemplate, hname _ _ h']
    · rfl
    · intro s hs; subst hs; exact h rfl

/-- **C80** A field with any other name than the seven ones is a `KeyError`. -/
theorem C80_unknown_field (a : TemplateArgs) (name rest r : List Char) (hn : ∀ c ∈ name, c ≠ '{' ∧ c ≠ '}' ∧ c ≠ ':')
    (hk : name ∉ ["year", "month", "day", "hour", "minute", "levtype", "variable"].map String.toList)
    (hr : formatTemplate rest a = .ok r) :
    formatTemplate ('{' :: (name ++ '}' :: rest)) a = .error .keyError := by
  have hp := parse_name [] name rest hn
  have ho : parseTemplate .text ('{' :: (name ++ '}' :: rest)) =
      (do return .field ([] ++ name) [] :: (← parseTemplate .text rest)) := by
    rw [parse_open, hp]
    intro s hs
    cases name with
    | nil => simp at hs
    | cons c name =>
      rw [List.cons_append] at hs
      injection hs with e
      exact (hn c List.mem_cons_self).1 e
  rw [formatTemplate_piece a ho]
  unfold formatTemplate at hr
  cases hps : parseTemplate .text rest with
  | error e => rw [hps] at hr; injection hr
  | ok ps =>
    simp only [List.map_cons, List.map_nil, List.mem_cons, List.not_mem_nil, or_false, not_or] at hk
    obtain ⟨h1, h2, h3, h4, h5, h6, h7⟩ := hk
    simp only [bind, Except.bind, renderPiece, List.nil_append]
    rw [if_neg h1, if_neg h2, if_neg h3, if_neg h4, if_neg h5, if_neg h6, if_neg h7]

example : formatTemplate "{{a}}".toList (era5Args .standard true "sp" 0) = .ok "{a}".toList ∧
    formatTemplate "a}b".toList (era5Args .standard true "sp" 0) = .error .valueError ∧
    formatTemplate "a{year".toList (era5Args .standard true "sp" 0) = .error .valueError := by decide +kernel

theorem pad_two (n : ℕ) (h : n < 100) : padString 2 (natString n) = pad2 n := by
  have : ∀ n : Fin 100, padString 2 (natString n) = pad2 n := by decide +kernel
  exact this ⟨n, h⟩

theorem natString_four (n : ℕ) (h : 1000 ≤ n) (h' : n < 10000) : natString n = pad4 n := by
  unfold natString
  rw [if_neg (by omega), Nat.digits_def' (by norm_num) (by omega), Nat.digits_def' (by norm_num) (by omega),
    Nat.digits_def' (by norm_num) (by omega), Nat.digits_def' (by norm_num) (by omega)]
  have : n / 10 / 10 / 10 / 10 = 0 := by omega
  rw [this, Nat.digits_zero]
  simp only [List.map_cons, List.map_nil, List.reverse_cons, List.reverse_nil, List.nil_append,
    List.cons_append, pad4, digit]
  have e1 : n / 10 / 10 / 10 % 10 % 10 = n / 1000 % 10 := by omega
  have e2 : n / 10 / 10 % 10 % 10 = n / 100 % 10 := by omega
  have e3 : n / 10 % 10 % 10 = n / 10 % 10 := by omega
  have e4 : n % 10 % 10 = n % 10 := by omega
  rw [e1, e2, e3, e4]

theorem pad_four (w n : ℕ) (hw : w ≤ 4) (h : 1000 ≤ n) (h' : n < 10000) :
    padString w (natString n) = pad4 n := by
  rw [natString_four n h h']
  unfold padString
  rw [pad4_length, Nat.sub_eq_zero_of_le hw]; rfl

/-- **C80** `{month:02}`, `{day:02}`, `{hour:02}`, `{minute:02}` are replaced by two digits (with or without the `d`),
`{year}` by the four digits of the year. -/
theorem C80_dates (a : TemplateArgs) (rest : List Char) (hm : a.month < 100) (hd : a.day < 100)
    (hh : a.hour < 100) (hn : a.minute < 100) (hy : 1000 ≤ a.year) (hy' : a.year < 10000) :
    (∀ d ∈ ["02".toList, "02d".toList],
      formatTemplate ("{month:".toList ++ (d ++ '}' :: rest)) a =
        (formatTemplate rest a).map (fun r => pad2 a.month ++ r) ∧
      formatTemplate ("{day:".toList ++ (d ++ '}' :: rest)) a =
        (formatTemplate rest a).map (fun r => pad2 a.day ++ r) ∧
      formatTemplate ("{hour:".toList ++ (d ++ '}' :: rest)) a =
        (formatTemplate rest a).map (fun r => pad2 a.hour ++ r) ∧
      formatTemplate ("{minute:".toList ++ (d ++ '}' :: rest)) a =
        (formatTemplate rest a).map (fun r => pad2 a.minute ++ r)) ∧
    formatTemplate ("{year}".toList ++ rest) a =
        (formatTemplate rest a).map (fun r => pad4 a.year.toNat ++ r) := by
  have key : ∀ (d name x : List Char), d ∈ ["02".toList, "02d".toList] →
      (∀ c ∈ name, c ≠ '{' ∧ c ≠ '}' ∧ c ≠ ':') → name ≠ [] → renderPiece a (.field name d) = .ok x →
      formatTemplate ('{' :: (name ++ ':' :: (d ++ '}' :: rest))) a =
        (formatTemplate rest a).map (fun r => x ++ r) := by
    intro d name x hd hname hne hr
    refine format_ok_cons (p := .field name d) ?_ hr
    rw [parse_open _ _ (by
      intro s h
      cases name with
      | nil => exact hne rfl
      | cons c name => injection h with h; exact (hname c List.mem_cons_self).1 h),
      parse_name_spec [] _ _ _ hname (by
        rcases List.mem_cons.mp hd with rfl | hd
        · decide
        · rcases List.mem_singleton.mp hd with rfl; decide)]; rfl
  have nat : ∀ n d, n < 100 → d ∈ ["02".toList, "02d".toList] → formatNat n d = .ok (pad2 n) := by
    intro n d hn hd
    rcases List.mem_cons.mp hd with rfl | hd
    · show Except.ok (padString 2 (natString n)) = _
      rw [pad_two n hn]
    · rcases List.mem_singleton.mp hd with rfl
      show Except.ok (padString 2 (natString n)) = _
      rw [pad_two n hn]
  refine ⟨fun d hd' => ⟨?_, ?_, ?_, ?_⟩, ?_⟩
  · exact key d "month".toList _ hd' (by decide) (by decide) (nat _ _ hm hd')
  · exact key d "day".toList _ hd' (by decide) (by decide) (nat _ _ hd hd')
  · exact key d "hour".toList _ hd' (by decide) (by decide) (nat _ _ hh hd')
  · exact key d "minute".toList _ hd' (by decide) (by decide) (nat _ _ hn hd')
  · refine format_ok_cons (p := .field "year".toList []) (x := pad4 a.year.toNat) ?_ ?_
    · show parseTemplate .text ('{' :: ("year".toList ++ '}' :: rest)) = _
      rw [parse_open _ _ (by intro s h; cases h), parse_name [] _ _ (by decide)]; rfl
    · show (if a.year < 0 then _ else Except.ok (padString 0 (natString a.year.toNat))) = _
      rw [if_neg (by omega), pad_four 0 _ (by omega) (by omega) (by omega)]

/-! ### Different data, different files -/

theorem render_count (c : Char) (a b : TemplateArgs) (hy : a.year = b.year) (hm : a.month = b.month)
    (hd : a.day = b.day) (hh : a.hour = b.hour) (hn : a.minute = b.minute)
    (ha : a.levtype.count c = 0) (hb : b.levtype.count c = 0) (hlt : a.var.count c < b.var.count c)
    (ps : List Piece) (s s' : List Char) (h : renderPieces a ps = .ok s) (h' : renderPieces b ps = .ok s') :
    s.count c ≤ s'.count c ∧ ((∃ spec, Piece.field "variable".toList spec ∈ ps) → s.count c < s'.count c) := by
  induction ps generalizing s s' with
  | nil =>
    cases h; cases h'
    exact ⟨le_rfl, fun ⟨_, h⟩ => by cases h⟩
  | cons p ps ih =>
    unfold renderPieces at h h'
    cases h1 : renderPiece a p with
    | error e => rw [h1] at h; cases h
    | ok x =>
      cases h2 : renderPieces a ps with
      | error e => rw [h1, h2] at h; cases h
      | ok r =>
        cases h3 : renderPiece b p with
        | error e => rw [h3] at h'; cases h'
        | ok x' =>
          cases h4 : renderPieces b ps with
          | error e => rw [h3, h4] at h'; cases h'
          | ok r' =>
            rw [h1, h2] at h; rw [h3, h4] at h'
            have h := Except.ok.inj h
            have h' := Except.ok.inj h'
            subst h h'
            obtain ⟨i1, i2⟩ := ih r r' h2 h4
            have hp : x.count c ≤ x'.count c ∧
                ((∃ spec, p = .field "variable".toList spec) → x.count c < x'.count c) := by
              unfold renderPiece at h1 h3
              cases p with
              | text t =>
                cases h1; cases h3
                exact ⟨le_rfl, fun ⟨_, h⟩ => by cases h⟩
              | field name spec =>
                have hfix : ∀ n, n ≠ "variable".toList → x = x' → name = n →
                    x.count c ≤ x'.count c ∧
                    ((∃ spec', Piece.field name spec = .field "variable".toList spec') →
                      x.count c < x'.count c) := by
                  intro n hn hx hname
                  subst hx
                  refine ⟨le_rfl, ?_⟩
                  rintro ⟨_, h⟩
                  injection h with h _
                  exact absurd (hname ▸ h) hn
                simp only at h1
                simp only [← hy, ← hm, ← hd, ← hh, ← hn] at h3
                by_cases e1 : name = "year".toList
                · rw [if_pos e1] at h1 h3
                  rw [h1] at h3
                  exact hfix _ (by decide) (Except.ok.inj h3) e1
                rw [if_neg e1] at h1 h3
                by_cases e2 : name = "month".toList
                · rw [if_pos e2] at h1 h3
                  rw [h1] at h3
                  exact hfix _ (by decide) (Except.ok.inj h3) e2
                rw [if_neg e2] at h1 h3
                by_cases e3 : name = "day".toList
                · rw [if_pos e3] at h1 h3
                  rw [h1] at h3
                  exact hfix _ (by decide) (Except.ok.inj h3) e3
                rw [if_neg e3] at h1 h3
                by_cases e4 : name = "hour".toList
                · rw [if_pos e4] at h1 h3
                  rw [h1] at h3
                  exact hfix _ (by decide) (Except.ok.inj h3) e4
                rw [if_neg e4] at h1 h3
                by_cases e5 : name = "minute".toList
                · rw [if_pos e5] at h1 h3
                  rw [h1] at h3
                  exact hfix _ (by decide) (Except.ok.inj h3) e5
                rw [if_neg e5] at h1 h3
                by_cases e6 : name = "levtype".toList
                · rw [if_pos e6] at h1 h3
                  unfold formatStr at h1 h3
                  split at h1
                  · rw [if_pos (by assumption)] at h3
                    cases h1; cases h3
                    refine ⟨by rw [ha, hb], ?_⟩
                    rintro ⟨_, h⟩
                    injection h with h _
                    rw [e6] at h
                    exact absurd h (by decide)
                  · cases h1
                rw [if_neg e6] at h1 h3
                by_cases e7 : name = "variable".toList
                · rw [if_pos e7] at h1 h3
                  unfold formatStr at h1 h3
                  split at h1
                  · rw [if_pos (by assumption)] at h3
                    cases h1; cases h3
                    exact ⟨hlt.le, fun _ => hlt⟩
                  · cases h1
                rw [if_neg e7] at h1; cases h1
            rw [List.count_append, List.count_append]
            refine ⟨by omega, ?_⟩
            rintro ⟨spec, hs⟩
            rcases List.mem_cons.mp hs with hs | hs
            · have := hp.2 ⟨spec, hs.symm⟩; omega
            · have := i2 ⟨spec, hs⟩; omega

/-- **C80** A template that contains `{variable}` gives different variables different files. -/
theorem C80_different_variables (template : List Char) (hu : UsesField template "variable") (c : Calendar)
    (pressure : Bool) (t : ℤ) (v v' : String) (hv : v ∈ era5Variables) (hv' : v' ∈ era5Variables)
    (hne : v ≠ v') (path path' : List Char)
    (h : formatTemplate template (era5Args c pressure v t) = .ok path)
    (h' : formatTemplate template (era5Args c pressure v' t) = .ok path') : path ≠ path' := by
  have hchar : ∀ v ∈ era5Variables, ∀ v' ∈ era5Variables, v ≠ v' → ∃ c ∈ "quvsdetc1".toList,
      (v.toList.count c < v'.toList.count c ∨ v'.toList.count c < v.toList.count c) := by decide +kernel
  obtain ⟨ch, hch, hlt⟩ := hchar v hv v' hv' hne
  have hlev : ∀ v, (era5Args c pressure v t).levtype.count ch = 0 := by
    intro v
    have : ∀ ch ∈ "quvsdetc1".toList, "_pl".toList.count ch = 0 ∧ "_ml".toList.count ch = 0 := by
      decide +kernel
    unfold era5Args
    simp only
    split
    · split
      · exact (this ch hch).1
      · exact (this ch hch).2
    · rfl
  obtain ⟨pieces, spec, hp, hs⟩ := hu
  unfold formatTemplate at h h'
  rw [hp] at h h'
  rcases hlt with hlt | hlt
  · have := (render_count ch (era5Args c pressure v t) (era5Args c pressure v' t) rfl rfl rfl rfl rfl (hlev v) (hlev v') hlt pieces path path' h h').2 ⟨spec, hs⟩
    rintro rfl; omega
  · have := (render_count ch (era5Args c pressure v' t) (era5Args c pressure v t) rfl rfl rfl rfl rfl (hlev v') (hlev v) hlt pieces path' path h' h).2 ⟨spec, hs⟩
    rintro rfl; omega

theorem formatNat_width (n n' w : ℕ) (spec x x' : List Char) (h : formatNat n spec = .ok x)
    (h' : formatNat n' spec = .ok x') (hw : specWidth spec = some w) :
    x = padString w (natString n) ∧ x' = padString w (natString n') := by
  unfold formatNat at h h'
  rw [hw] at h h'
  exact ⟨(Except.ok.inj h).symm, (Except.ok.inj h').symm⟩

/-- the value of a date field -/
def dateField (a : TemplateArgs) (name : String) : ℤ :=
  if name = "year" then a.year else if name = "month" then a.month else if name = "day" then a.day
  else if name = "hour" then a.hour else a.minute

theorem render_fixed (a b : TemplateArgs) (hl : a.levtype = b.levtype) (hv : a.var = b.var)
    (ra : a.month < 100 ∧ a.day < 100 ∧ a.hour < 100 ∧ a.minute < 100 ∧ 1000 ≤ a.year ∧ a.year < 10000)
    (rb : b.month < 100 ∧ b.day < 100 ∧ b.hour < 100 ∧ b.minute < 100 ∧ 1000 ≤ b.year ∧ b.year < 10000)
    (ps : List Piece) (hps : ∀ name spec, Piece.field name spec ∈ ps →
      (name ∈ ["month".toList, "day".toList, "hour".toList, "minute".toList] →
        spec = "02".toList ∨ spec = "02d".toList) ∧
      (name = "year".toList → spec = [] ∨ spec = "04".toList ∨ spec = "04d".toList))
    (s : List Char) (h : renderPieces a ps = .ok s) (h' : renderPieces b ps = .ok s) :
    ∀ name ∈ ["year", "month", "day", "hour", "minute"], (∃ spec, Piece.field name.toList spec ∈ ps) →
      dateField a name = dateField b name := by
  induction ps generalizing s with
  | nil => intro name _ ⟨_, h⟩; cases h
  | cons p ps ih =>
    unfold renderPieces at h h'
    cases h1 : renderPiece a p with
    | error e => rw [h1] at h; cases h
    | ok x =>
      cases h2 : renderPieces a ps with
      | error e => rw [h1, h2] at h; cases h
      | ok r =>
        cases h3 : renderPiece b p with
        | error e => rw [h3] at h'; cases h'
        | ok x' =>
          cases h4 : renderPieces b ps with
          | error e => rw [h3, h4] at h'; cases h'
          | ok r' =>
            rw [h1, h2] at h; rw [h3, h4] at h'
            have h := Except.ok.inj h
            have h' := Except.ok.inj h'
            have hp : x.length = x'.length ∧ (x = x' → ∀ name ∈ ["year", "month", "day", "hour", "minute"],
                (∃ spec, p = Piece.field name.toList spec) → dateField a name = dateField b name) := by
              cases p with
              | text t =>
                cases h1; cases h3
                exact ⟨rfl, fun _ name _ ⟨_, h⟩ => by cases h⟩
              | field name spec =>
                obtain ⟨w2, w4⟩ := hps name spec List.mem_cons_self
                have two : ∀ n n', n < 100 → n' < 100 → (spec = "02".toList ∨ spec = "02d".toList) →
                    formatNat n spec = .ok x → formatNat n' spec = .ok x' →
                    x.length = x'.length ∧ (x = x' → n = n') := by
                  intro n n' hn hn' hs e e'
                  obtain ⟨rfl, rfl⟩ := formatNat_width n n' 2 spec x x' e e' (by
                    rcases hs with rfl | rfl <;> rfl)
                  rw [pad_two n hn, pad_two n' hn']
                  exact ⟨rfl, (pad2_inj hn hn').mp⟩
                have only : ∀ m : String, name = m.toList → (x.length = x'.length ∧
                    (x = x' → dateField a m = dateField b m)) →
                    x.length = x'.length ∧ (x = x' → ∀ name' ∈ ["year", "month", "day", "hour", "minute"],
                      (∃ spec', Piece.field name spec = Piece.field name'.toList spec') →
                        dateField a name' = dateField b name') := by
                  intro m hm h
                  refine ⟨h.1, fun hx name' _ ⟨_, he⟩ => ?_⟩
                  injection he with he _
                  rw [hm] at he
                  have := String.toList_inj.mp he
                  subst this
                  exact h.2 hx
                unfold renderPiece at h1 h3
                simp only at h1 h3
                by_cases e1 : name = "year".toList
                · rw [if_pos e1, if_neg (by omega)] at h1 h3
                  obtain ⟨w, hw, hw4⟩ : ∃ w, specWidth spec = some w ∧ w ≤ 4 := by
                    rcases w4 e1 with rfl | rfl | rfl
                    · exact ⟨0, rfl, by omega⟩
                    · exact ⟨4, rfl, by omega⟩
                    · exact ⟨4, rfl, by omega⟩
                  obtain ⟨rfl, rfl⟩ := formatNat_width _ _ w spec x x' h1 h3 hw
                  refine only "year" e1 ?_
                  rw [pad_four w _ hw4 (by omega) (by omega), pad_four w _ hw4 (by omega) (by omega)]
                  refine ⟨rfl, fun hx => ?_⟩
                  have := (pad4_inj (by omega) (by omega)).mp hx
                  show a.year = b.year
                  omega
                rw [if_neg e1] at h1 h3
                by_cases e2 : name = "month".toList
                · rw [if_pos e2] at h1 h3
                  have := two _ _ ra.1 rb.1 (w2 (by rw [e2]; decide)) h1 h3
                  exact only "month" e2 ⟨this.1, fun hx => congrArg Int.ofNat (this.2 hx)⟩
                rw [if_neg e2] at h1 h3
                by_cases e3 : name = "day".toList
                · rw [if_pos e3] at h1 h3
                  have := two _ _ ra.2.1 rb.2.1 (w2 (by rw [e3]; decide)) h1 h3
                  exact only "day" e3 ⟨this.1, fun hx => congrArg Int.ofNat (this.2 hx)⟩
                rw [if_neg e3] at h1 h3
                by_cases e4 : name = "hour".toList
                · rw [if_pos e4] at h1 h3
                  have := two _ _ ra.2.2.1 rb.2.2.1 (w2 (by rw [e4]; decide)) h1 h3
                  exact only "hour" e4 ⟨this.1, fun hx => congrArg Int.ofNat (this.2 hx)⟩
                rw [if_neg e4] at h1 h3
                by_cases e5 : name = "minute".toList
                · rw [if_pos e5] at h1 h3
                  have := two _ _ ra.2.2.2.1 rb.2.2.2.1 (w2 (by rw [e5]; decide)) h1 h3
                  exact only "minute" e5 ⟨this.1, fun hx => congrArg Int.ofNat (this.2 hx)⟩
                rw [if_neg e5] at h1 h3
                have hxx : x = x' := by
                  rw [← hl, ← hv, h1] at h3
                  exact Except.ok.inj h3
                refine ⟨by rw [hxx], ?_⟩
                rintro - name' hn' ⟨_, he⟩
                injection he with he _
                simp only [List.mem_cons, List.not_mem_nil, or_false] at hn'
                rcases hn' with rfl | rfl | rfl | rfl | rfl
                · exact absurd he e1
                · exact absurd he e2
                · exact absurd he e3
                · exact absurd he e4
                · exact absurd he e5
            have hsplit : x = x' ∧ r = r' := List.append_inj (h.trans h'.symm) hp.1
            rintro name hname ⟨spec, hs⟩
            rcases List.mem_cons.mp hs with hs | hs
            · exact hp.2 hsplit.1 name hname ⟨spec, hs.symm⟩
            · exact ih (fun name spec hm => hps name spec (List.mem_cons_of_mem _ hm)) r h2
                (by rw [hsplit.2]; exact h4) name hname ⟨spec, hs⟩

/-- years with four digits, the first of which is not zero -/
def PlainYear (c : Calendar) (t : ℤ) : Prop :=
  1000 ≤ (dateTimeOf c t).date.year ∧ (dateTimeOf c t).date.year < 10000

/-- **C80** If a template writes all dates with a fixed number of digits then two times share the file of a variable
only if they agree in every part of the date that the template uses. -/
theorem C80_different_times (template : List Char) (hw : FixedWidth template) (c : Calendar)
    (pressure : Bool) (v : String) (t t' : ℤ) (hy : PlainYear c t) (hy' : PlainYear c t') (path : List Char)
    (h : formatTemplate template (era5Args c pressure v t) = .ok path)
    (h' : formatTemplate template (era5Args c pressure v t') = .ok path) :
    (UsesField template "year" → (dateTimeOf c t).date.year = (dateTimeOf c t').date.year) ∧
    (UsesField template "month" → (dateTimeOf c t).date.month = (dateTimeOf c t').date.month) ∧
    (UsesField template "day" → (dateTimeOf c t).date.day = (dateTimeOf c t').date.day) ∧
    (UsesField template "hour" → (dateTimeOf c t).hour = (dateTimeOf c t').hour) ∧
    (UsesField template "minute" → (dateTimeOf c t).minute = (dateTimeOf c t').minute) := by
  have range : ∀ t, PlainYear c t → let a := era5Args c pressure v t
      a.month < 100 ∧ a.day < 100 ∧ a.hour < 100 ∧ a.minute < 100 ∧ 1000 ≤ a.year ∧ a.year < 10000 := by
    intro t hy
    have h1 := monthDay_lt c _ (dateTimeOf_valid c t).1
    have h2 := hourMinute_lt c t
    exact ⟨h1.1, h1.2, h2.1, h2.2.1, hy.1, hy.2⟩
  cases hp : parseTemplate .text template with
  | error e => unfold formatTemplate at h; rw [hp] at h; cases h
  | ok ps =>
    unfold formatTemplate at h h'
    rw [hp] at h h'
    have key := render_fixed (era5Args c pressure v t) (era5Args c pressure v t') rfl rfl (range t hy)
      (range t' hy') ps (fun name spec hm => hw ps name spec hp hm) path h h'
    have use : ∀ name, UsesField template name → ∃ spec, Piece.field name.toList spec ∈ ps := by
      rintro name ⟨ps', spec, hps, hs⟩
      rw [hp] at hps
      cases hps
      exact ⟨spec, hs⟩
    refine ⟨fun hu => key "year" (by decide) (use _ hu), fun hu => ?_, fun hu => ?_, fun hu => ?_, fun hu => ?_⟩
    · exact Int.ofNat.inj (key "month" (by decide) (use _ hu))
    · exact Int.ofNat.inj (key "day" (by decide) (use _ hu))
    · exact Int.ofNat.inj (key "hour" (by decide) (use _ hu))
    · exact Int.ofNat.inj (key "minute" (by decide) (use _ hu))

/-- **C80** In particular a template with `{year}`, `{month:02}` and `{day:02}` gives every day its own files. -/
theorem C80_daily_files (template : List Char) (hw : FixedWidth template) (hu : UsesField template "year")
    (hu' : UsesField template "month") (hu'' : UsesField template "day") (c : Calendar) (pressure : Bool)
    (v : String) (t t' : ℤ) (hy : PlainYear c t) (hy' : PlainYear c t') (path : List Char)
    (h : formatTemplate template (era5Args c pressure v t) = .ok path)
    (h' : formatTemplate template (era5Args c pressure v t') = .ok path) : SameDay t t' := by
  obtain ⟨h1, h2, h3, -⟩ := C80_different_times template hw c pressure v t t' hy hy' path h h'
  have hd : (dateTimeOf c t).date = (dateTimeOf c t').date := by
    cases hx : (dateTimeOf c t).date
    cases hy : (dateTimeOf c t').date
    rw [hx, hy] at h1 h2 h3
    simp only [Date.mk.injEq]
    exact ⟨h1 hu, h2 hu', h3 hu''⟩
  exact (date_eq_iff c t t').mp hd

/-! ### Examples -/

/-- the template of the documentation (config.py:85) -/
def docTemplate : List Char :=
  "/ERA5data/{year}/{month:02}/ERA5_{year}-{month:02d}-{day:02d}{levtype}_{variable}.nc".toList

/-- the example of the documentation, for 2021-07-15 -/
example : formatTemplate docTemplate (era5Args .standard false "u" 1626307200000000) =
    .ok "/ERA5data/2021/07/ERA5_2021-07-15_ml_u.nc".toList := by decide +kernel

example : formatTemplate docTemplate (era5Args .standard true "sp" 1626307200000000) =
    .ok "/ERA5data/2021/07/ERA5_2021-07-15_sp.nc".toList := by decide +kernel

example : UsesField docTemplate "variable" ∧ UsesField docTemplate "year" ∧ UsesField docTemplate "month" ∧
    UsesField docTemplate "day" ∧ FixedWidth docTemplate := by
  have hc : (parseTemplate .text docTemplate).toOption.map (fun ps =>
      decide (Piece.field "variable".toList [] ∈ ps ∧ .field "year".toList [] ∈ ps ∧
        .field "month".toList "02".toList ∈ ps ∧ .field "day".toList "02d".toList ∈ ps) && ps.all fun p => match p with
        | .text _ => true
        | .field name spec => decide ((name ∈ ["month".toList, "day".toList, "hour".toList, "minute".toList] →
            spec = "02".toList ∨ spec = "02d".toList) ∧
          (name = "year".toList → spec = [] ∨ spec = "04".toList ∨ spec = "04d".toList))) = some true := by
    decide +kernel
  cases hp : parseTemplate .text docTemplate with
  | error e => rw [hp] at hc; cases hc
  | ok ps =>
  rw [hp] at hc
  have hc := Option.some.inj hc
  rw [Bool.and_eq_true, decide_eq_true_iff, List.all_eq_true] at hc
  obtain ⟨⟨h1, h2, h3, h4⟩, h5⟩ := hc
  refine ⟨⟨ps, _, hp, h1⟩, ⟨ps, _, hp, h2⟩, ⟨ps, _, hp, h3⟩, ⟨ps, _, hp, h4⟩, ?_⟩
  intro ps' name spec hps' hm
  rw [hp] at hps'
  cases hps'
  exact of_decide_eq_true (h5 _ hm)

/-- without leading zeros different days may share a file: 2021-01-11 and 2021-11-01 -/
example : formatTemplate "{year}{month}{day}_{variable}".toList (era5Args .standard true "sp" 1610323200000000) =
    formatTemplate "{year}{month}{day}_{variable}".toList (era5Args .standard true "sp" 1635724800000000) ∧
    ¬ SameDay 1610323200000000 1635724800000000 := by decide +kernel

/-- an unknown field is an error -/
example : formatTemplate "{yr}_{variable}".toList (era5Args .standard true "sp" 0) = .error .keyError := by
  decide +kernel

end Wam
