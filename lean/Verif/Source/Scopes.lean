import Verif.Source.NamesPublic
/-!
# What the names of the crate's text stand for
-/

namespace Raki.Source

theorem scopes_of {ps : List (List String)} {qs : List (List Nat)} {fs : List (String × List String)}
    {us : List (Nat × List Tok)}
    (h : lexFiles (fs.map fun (m, ls) => (spell (codes m) 0, ls.map codes)) = some us)
    (hp : (ps.map fun p => p.map spelled) = qs) : scopesOf ps fs = scopes qs us := by
  rw [scopesOf, hp]
  exact (congrArg (fun x => x.bind (scopes qs)) h)

theorem scope_files : ∃ r, scopesOf places files = some r ∧ allRead r.ctx r.mods = true ∧
    distinct (typeNames r.mods) = true ∧ samePaths ([] :: fileMods r.mods) (places.map fun p => p.map spelled) = true ∧
    covered r.mods r.toks = true ∧
    exports r.lib 5 [] = publicItems (publicNames.map fun (n, p, t) => (spelled n, p.map spelled, t)) ∧
    (callable r.lib).map (fun e => (e.1.bind ident, ident e.2)) = publicFns.map (fun e => (some e.1, some e.2)) ∧
    usesOnly (corePaths.map fun p => p.map spelled) (preludeWords.map spelled) r.lib = true ∧
    (r.toks.all fun u => lacks (unusedWords.map spelled) u.2) = true := by
  have hp : (places.map fun p => p.map spelled) = placeNames := by
    rw [placeNames, ← places_eq, List.map_map]
    exact List.map_congr_left fun p _ => by rw [Function.comp, List.map_map]; rfl
  have hs := scopes_of lex_files hp
  have h1 := read_tokens
  have h2 := covered_tokens
  have h3 := public_tokens
  rw [← hs] at h1 h2 h3
  rw [← public_eq, ← core_eq, ← prelude_eq, ← unused_eq] at h3
  cases e : scopesOf places files with
  | none => rw [e] at h1; cases h1
  | some r =>
    rw [e] at h1 h2 h3
    have h1 := Option.some.inj h1
    have h2 := Option.some.inj h2
    have h3 := Option.some.inj h3
    refine ⟨r, rfl, congrArg (·.1) h1, congrArg (·.2.1) h1, ?_, h2, congrArg (·.1) h3, congrArg (·.2.1) h3,
      congrArg (·.2.2.1) h3, congrArg (·.2.2.2) h3⟩
    rw [hp]
    exact congrArg (·.2.2) h1

end Raki.Source
