import Verif.Lemmas.MqlMessages
import Verif.Lemmas.MqlOrder
import Verif.Lemmas.MetricsMessages
import Verif.Props.MqlErrors
import Verif.Props.MqlToken

/-!
# C93: what `parse_mql` says about a text it refuses
-/

namespace Verif

open Spec MqlMsg

section
variable [PyText] [PyShow] [U : PyUnicode] [S : RegexSpace]

/-- **C93** (classes). Without the messages the parser is that of the rest of the model, of which C37 to C68 speak. -/
theorem C93_same_class (mql : Str) : dropMessage (parseMqlMsg mql) = parseMql mql := drop_parse mql

omit [PyText] [PyShow] U in
theorem grammar_iff (mql : Str) : GrammarMatches mql ↔ parseTree (stripP isSpace mql) ≠ none := by
  have h := C41_syntax_error_iff mql
  constructor
  · rintro ⟨n, nd, hn⟩ he
    exact h.1 he n nd hn
  · intro hne
    refine Classical.byContradiction fun hc => hne (h.2 fun n nd hn => hc ⟨n, nd, hn⟩)

/-- **C93.** What the parser raises has the class and the exact message of a fault that the text has. -/
theorem C93_faults (mql : Str) (r : Raised) (h : parseMqlMsg mql = .error r) : MqlFault mql r := by
  have hall := h
  unfold parseMqlMsg at h
  cases ht : parseTree (stripP isSpace mql) with
  | none =>
    rw [ht] at h
    cases h
    exact .grammar fun hm => (grammar_iff mql).1 hm ht
  | some nd =>
    have hm : GrammarMatches mql := (grammar_iff mql).2 (by rw [ht]; simp)
    rw [ht] at h
    simp only [bind_eq_error] at h
    rcases h with h | ⟨v, hv, h⟩
    · obtain ⟨a, b, hab, _, _⟩ := strip_split mql
      obtain ⟨hf, htx⟩ : Fits (.rule .expression) nd ∧ stripP isSpace mql = nd.text := by
        unfold parseTree at ht
        split at ht
        · rename_i nd' hr
          cases ht
          obtain ⟨hf, h'⟩ := pegRun_fits _ _ _ _ _ hr
          exact ⟨hf, by simpa using h'⟩
        · cases ht
      refine raised_fault hm ?_
      rw [hab, htx]
      exact (node_raise hf (.inl rfl) h).infix a b
    · have hd := C93_same_class mql
      rw [hall] at hd
      have he : ∃ e, v.asQuery = .error e ∧ r = (e, none) := by
        cases hq : v.asQuery with
        | ok m => rw [hq] at h; cases h
        | error e => rw [hq] at h; cases h; exact ⟨e, rfl, rfl⟩
      obtain ⟨e, he, rfl⟩ := he
      have hassert : e = .assertion := by
        cases v with
        | obj m => simp only [V.asQuery] at he; split at he <;> cases he; rfl
        | _ => cases he; rfl
      subst hassert
      rcases C58_failures mql _ hd.symm with h' | ⟨h', _⟩ | ⟨_, h'⟩
      · cases h'
      · cases h'
      · exact .scalar hm h'

/-- **C93** (order). Of several faults in a text that the grammar matches the one is reported that is met first when every node of the
parse tree is visited after its children, and the children from left to right; the last check is that the whole is a query. -/
theorem C93_first (mql : Str) (tree : Node Rule) (ht : parseTree (stripP isSpace mql) = some tree) (r : Raised) :
    parseMqlMsg mql = .error r ↔
      FirstRaise (postorder tree) r ∨
        (r = (.assertion, none) ∧ (∀ n ∈ postorder tree, Visited n) ∧
          ∀ v, visitNodeMsg tree = .ok v → ∀ q, q.isQuery = true → v ≠ .obj q) := by
  simp only [parseMqlMsg, ht, bind_eq_error, ← MqlOrder.node_first]
  refine or_congr Iff.rfl ⟨?_, ?_⟩
  · rintro ⟨v, hv, h⟩
    refine ⟨?_, MqlOrder.visited_all ⟨v, hv⟩, ?_⟩
    · cases v with
      | obj m => simp only [V.asQuery] at h; split at h <;> cases h; rfl
      | _ => cases h; rfl
    · intro w hw q hq hwq
      rw [hv] at hw
      cases hw
      subst hwq
      simp only [V.asQuery, hq, if_true] at h
      cases h
  · rintro ⟨rfl, hall, hno⟩
    obtain ⟨v, hv⟩ := hall tree (MqlOrder.self_mem tree)
    refine ⟨v, hv, ?_⟩
    cases v with
    | obj m =>
      cases hm : m.isQuery with
      | true => exact absurd rfl (hno _ hv m hm)
      | false => simp only [V.asQuery, hm]; rfl
    | _ => rfl

/-- **C93** (syntax). `Invalid metrics syntax` is said exactly of the texts that the grammar does not match. -/
theorem C93_syntax (mql : Str) :
    parseMqlMsg mql = .error (.invalidMQL, some c!"Invalid metrics syntax") ↔ ¬ GrammarMatches mql := by
  constructor
  · intro h
    generalize hr : (Err.invalidMQL, some c!"Invalid metrics syntax") = r at h
    cases C93_faults mql r h with
    | grammar hg => exact hg
    | column pre k post _ _ _ => cases hr
    | scalar => cases hr
    | _ => exact absurd hr (by decide)
  · intro h
    have : parseTree (stripP isSpace mql) = none := Classical.byContradiction fun hc => h ((grammar_iff mql).2 hc)
    simp only [parseMqlMsg, this]
    rfl

/-- **C93** (words). Only an `assert` has no message, and it is reached only by a number or a string that stands alone or in
parentheses. -/
theorem C93_message_given (mql : Str) (e : Err) :
    parseMqlMsg mql = .error (e, none) → e = .assertion ∧ (OnlyScalar mql ∨ ScalarInParens mql) := by
  intro h
  generalize hr : (e, (none : Option Str)) = r at h
  cases C93_faults mql r h with
  | scalar _ hs => cases hr; exact ⟨rfl, hs⟩
  | _ => cases hr

/-- **C93** (what is not said). A text without a dollar sign is not accused of a variable, one without a minus sign not of the negation
of a string, one without parentheses not of a function, and a key that is named in a message is in the text. -/
theorem C93_not_accused (mql : Str) (e : Err) (m : Str) (h : parseMqlMsg mql = .error (e, some m)) :
    ('$' ∉ mql → m ≠ c!"Variables are not supported yet") ∧
    ('-' ∉ mql → m ≠ c!"Unary expression not supported for type <class 'str'>") ∧
    ('(' ∉ mql → m ≠ c!"Cannot use arbitrary functions on a Timeseries without an aggregate") ∧
    (e = .invalidColumn → ∃ k, m = c!"column '" ++ k ++ c!"' is empty or contains invalid characters" ∧ k <:+: mql ∧ BadKey k) := by
  generalize hr : (e, some m) = r at h
  cases C93_faults mql r h with
  | grammar _ => cases hr; refine ⟨?_, ?_, ?_, ?_⟩ <;> first | (intro _; decide) | (intro h; cases h)
  | variable_ _ hv =>
    cases hr
    obtain ⟨pre, k, post, rfl, _⟩ := hv
    refine ⟨fun h => absurd (by simp) h, ?_, ?_, ?_⟩ <;> first | (intro _; decide) | (intro h; cases h)
  | negation _ hv =>
    cases hr
    obtain ⟨pre, k, post, rfl, _⟩ := hv
    refine ⟨?_, fun h => absurd (by simp) h, ?_, ?_⟩ <;> first | (intro _; decide) | (intro h; cases h)
  | call _ hv =>
    cases hr
    obtain ⟨pre, n, w, t, w', as, post, s, rfl, _⟩ := hv
    refine ⟨?_, ?_, fun h => absurd (by simp) h, ?_⟩ <;> first | (intro _; decide) | (intro h; cases h)
  | column pre k post _ ht hb =>
    cases hr
    refine ⟨?_, ?_, ?_, fun _ => ⟨k, rfl, ⟨pre, post, by rw [ht, List.append_assoc]⟩, hb⟩⟩
    all_goals
      intro _ h
      cases h
  | scalar => cases hr

/-- **C93** (metrics queries). A metrics query whose query is a string that is no MQL is refused with the words of a fault of that string
behind `invalid MQL: `. -/
theorem C93_in_metrics_query [PyRepr] (q : MetricsQueryObj) (s : Str) (hq : q.query = .val (.str s)) (hs : ∀ y, parseMql s ≠ .ok y) :
    ∃ r, MqlFault s r ∧ q.validateMsg = .error (.invalidMetricsQuery, some (c!"invalid MQL: " ++ r.2.getD [])) := by
  have hd := C93_same_class s
  cases hp : parseMqlMsg s with
  | ok y =>
    rw [hp] at hd
    exact absurd hd.symm (hs y)
  | error r =>
    refine ⟨r, C93_faults s r hp, ?_⟩
    simp only [MetricsQueryObj.validateMsg, hq, checkQueryMsg, parseCheckedMsg, hp]
    rfl

end

/-! ### Cases -/

section
@[local instance, reducible] private def exPmAscii : PyUnicode := asciiUnicode
@[local instance, reducible] private def exPmSpace : RegexSpace := pySpace
@[local instance, reducible] private def exPmShow : PyShow := ⟨fun _ => false, fun _ => c!"<object>"⟩
@[local instance, reducible] private def exPmText : PyText := ⟨fun _ => c!"<object>", fun _ => c!"builtins.object"⟩
@[local instance, reducible] private def exPmRepr : PyRepr := ⟨fun _ => c!"<object>"⟩

private def exPmSays {α : Type} : Except Raised α → Option Raised
  | .ok _ => none
  | .error r => some r

private theorem exPm_says {α : Type} {x : Except Raised α} {r : Raised} (h : exPmSays x = some r) : x = .error r := by
  cases x with
  | ok _ => cases h
  | error e => cases h; rfl

private theorem exPm_syntax : parseMqlMsg c!" sum(a " = .error (.invalidMQL, some c!"Invalid metrics syntax") := exPm_says (by decide +kernel)
private theorem exPm_variable : parseMqlMsg c!"sum(a) + $v" = .error (.invalidMQL, some c!"Variables are not supported yet") :=
  exPm_says (by decide +kernel)
private theorem exPm_negation : parseMqlMsg c!"sum(a) * -\"b\"" = .error (.invalidMQL, some c!"Unary expression not supported for type <class 'str'>") :=
  exPm_says (by decide +kernel)
private theorem exPm_call : parseMqlMsg c!"ff(a, 1)" =
    .error (.invalidMQL, some c!"Cannot use arbitrary functions on a Timeseries without an aggregate") := exPm_says (by decide +kernel)
private theorem exPm_column : parseMqlMsg c!"sum(a){b: \"c\", 1x: \"d\"}" =
    .error (.invalidColumn, some c!"column '1x' is empty or contains invalid characters") := exPm_says (by decide +kernel)
private theorem exPm_scalar : parseMqlMsg c!"sum(a) / (\"b\")" = .error (.assertion, none) := exPm_says (by decide +kernel)

/-- Each of the faults, and of several the one that the visitor meets first. -/
example : MqlFault c!" sum(a " (.invalidMQL, some c!"Invalid metrics syntax") ∧ MqlFault c!"sum(a) + $v" (.invalidMQL, some c!"Variables are not supported yet") ∧
    MqlFault c!"sum(a) / (\"b\")" (.assertion, none) ∧ exPmSays (parseMqlMsg c!"-\"b\" + $v") =
      some (.invalidMQL, some c!"Unary expression not supported for type <class 'str'>") ∧
    exPmSays (parseMqlMsg c!"$v + -\"b\"") = some (.invalidMQL, some c!"Variables are not supported yet") :=
  ⟨C93_faults _ _ exPm_syntax, C93_faults _ _ exPm_variable, C93_faults _ _ exPm_scalar, by decide +kernel, by decide +kernel⟩

/-- Two faults in one text, a variable and a number in parentheses behind it. -/
example : ∃ tree, parseTree (stripP isSpace c!"ff($v + (1))") = some tree ∧ FirstRaise (postorder tree) (.invalidMQL, some c!"Variables are not supported yet") := by
  cases h : parseTree (stripP isSpace c!"ff($v + (1))") with
  | none =>
    have h2 : exPmSays (parseMqlMsg c!"ff($v + (1))") = some (.invalidMQL, some c!"Invalid metrics syntax") := by
      simp only [parseMqlMsg, h]
      rfl
    exact absurd h2 (by decide +kernel)
  | some tree =>
    refine ⟨tree, rfl, ?_⟩
    rcases (C93_first _ tree h _).1 (exPm_says (r := (.invalidMQL, some c!"Variables are not supported yet")) (by decide +kernel)) with h | ⟨h, _⟩
    · exact h
    · cases h

example : ¬ GrammarMatches c!" sum(a " := (C93_syntax _).1 exPm_syntax

example : OnlyScalar c!"sum(a) / (\"b\")" ∨ ScalarInParens c!"sum(a) / (\"b\")" := (C93_message_given _ _ exPm_scalar).2

/-- The function whose first argument is a metric without an aggregate is found inside of another. -/
example : BareCallIn c!"gg(sum(a), ff(a{b:c}, 1))" := by
  have h : parseMqlMsg c!"gg(sum(a), ff(a{b:c}, 1))" =
      .error (.invalidMQL, some c!"Cannot use arbitrary functions on a Timeseries without an aggregate") := exPm_says (by decide +kernel)
  generalize hr : (Err.invalidMQL, some c!"Cannot use arbitrary functions on a Timeseries without an aggregate") = r at h
  cases C93_faults _ r h with
  | call _ hc => exact hc
  | column => cases hr
  | scalar => cases hr
  | _ => exact absurd hr (by decide)

example : BadKey c!"1x" := by
  obtain ⟨k, hk, _, hb⟩ := (C93_not_accused _ _ _ exPm_column).2.2.2 rfl
  have : k = c!"1x" := (List.append_cancel_left (List.append_cancel_right (show c!"column '" ++ c!"1x" ++ c!"' is empty or contains invalid characters" = _ from hk))).symm
  exact this ▸ hb

/-- A metrics query with a string that has no aggregate for a function. -/
example : exPmSays ({ query := .val (.str c!"ff(a, 1)") } : MetricsQueryObj).validateMsg =
    some (.invalidMetricsQuery, some c!"invalid MQL: Cannot use arbitrary functions on a Timeseries without an aggregate") ∧
    exPmSays ({ query := .val (.str c!"1") } : MetricsQueryObj).validateMsg = some (.invalidMetricsQuery, some c!"invalid MQL: ") := by
  constructor <;> decide +kernel

example : ∃ r, MqlFault c!"ff(a, 1)" r ∧ ({ query := .val (.str c!"ff(a, 1)") } : MetricsQueryObj).validateMsg =
    .error (.invalidMetricsQuery, some (c!"invalid MQL: " ++ r.2.getD [])) :=
  C93_in_metrics_query _ _ rfl fun y hy => by
    rw [← C93_same_class, exPm_call] at hy
    cases hy

end

end Verif
