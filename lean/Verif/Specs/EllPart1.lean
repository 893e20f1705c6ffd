import Verif.Specs.EllHead

/-! specs/ell.hsl, part 1, generated by tools/gen_specs.py. -/

set_option Elab.async false

namespace Verif.Specs.Ell

open Hsl

def lines1 : List String := [
"rewrite:\n",
"    \"(<sv>)̀\"                         -> \"(<av>)\"\n",
"    \"̀\"                               -> \"\"\n",
"    \"(<sv>)́\"                         -> \"(<av>)\"\n",
"    \"́\"                               -> \"\"\n",
"    \"(<sv>)͂\"                         -> \"(<av>)\"\n",
"    \"͂\"                               -> \"\"\n",
"    \"̈́\"                               -> \"̈\"\n",
"    \"ϊ\"                              -> \"ϊ\"\n",
"    \"ί̈\"                              -> \"ϊ\"\n",
"    \"ϋ\"                              -> \"ϋ\"\n"]

theorem lines1_ok : Part true lang macros vars (str "normalize") lines1 (str "rewrite") := by
  apply piece_of
  · dsimp only [lines1]; repeat (first | exact .nil | apply Spells.cons)
  · decide +kernel

def lines2 : List String := [
"    \"ύ̈\"                              -> \"ϋ\"\n",
"    \"̄\"                               -> \"\"\n",
"    \"̓\"                               -> \"\"\n",
"    \"̓\"                               -> \"\"\n",
"    \"̔\"                               -> \"\"\n",
"    \"῝\"                               -> \"\"\n",
"    \"῞\"                               -> \"\"\n",
"    \"῟\"                               -> \"\"\n",
"    \"῾\"                               -> \"\"\n",
"    \"{@}ϊ{@}\"                         -> \"-ι-\"\n"]

theorem lines2_ok : Part true lang macros vars (str "rewrite") lines2 (str "rewrite") := by
  apply piece_of
  · dsimp only [lines2]; repeat (first | exact .nil | apply Spells.cons)
  · decide +kernel

def lines3 : List String := [
"    \"{@}ϊ\"                            -> \"-ι\"\n",
"    \"ϊ{@}\"                            -> \"ι-\"\n",
"    \"ϊ\"                               -> \"ι\"\n",
"    \"{@}ϋ{@}\"                         -> \"-υ-\"\n",
"    \"{@}ϋ\"                            -> \"-υ\"\n",
"    \"ϋ{@}\"                            -> \"υ-\"\n",
"    \"ϋ\"                               -> \"υ\"\n",
"    \"{α|ε|η}υ{@|<v>}\"                 -> \"β\"\n",
"    \"{α|ε|η}ύ{@|<v>}\"                 -> \"β\"\n",
"    \"{α|ε|η}υ\"                        -> \"φ\"\n"]

theorem lines3_ok : Part true lang macros vars (str "rewrite") lines3 (str "rewrite") := by
  apply piece_of
  · dsimp only [lines3]; repeat (first | exact .nil | apply Spells.cons)
  · decide +kernel

def lines4 : List String := [
"    \"{α|ε|η}ύ\"                        -> \"φ\"\n",
"    \"αι\"                              -> \"ε\"\n",
"    \"ει\"                              -> \"ι\"\n",
"    \"οι\"                              -> \"ι\"\n",
"    \"ου\"                              -> \"Υ\"\n",
"    \"υι\"                              -> \"ι\"\n",
"    \"η\"                               -> \"ι\"\n",
"    \"υ\"                               -> \"ι\"\n",
"    \"{@}γγι\"                          -> \"Νγ-ι\"\n",
"    \"γι{@}\"                           -> \"Ι\"\n"]

theorem lines4_ok : Part true lang macros vars (str "rewrite") lines4 (str "rewrite") := by
  apply piece_of
  · dsimp only [lines4]; repeat (first | exact .nil | apply Spells.cons)
  · decide +kernel

def lines5 : List String := [
"    \"αί\"                              -> \"ε\"\n",
"    \"εί\"                              -> \"ι\"\n",
"    \"οί\"                              -> \"ι\"\n",
"    \"ού\"                              -> \"Υ\"\n",
"    \"υί\"                              -> \"ι\"\n",
"    \"ά\"                               -> \"α\"\n",
"    \"έ\"                               -> \"ε\"\n",
"    \"ή\"                               -> \"ι\"\n",
"    \"ί\"                               -> \"ι\"\n",
"    \"ό\"                               -> \"ο\"\n"]

theorem lines5_ok : Part true lang macros vars (str "rewrite") lines5 (str "rewrite") := by
  apply piece_of
  · dsimp only [lines5]; repeat (first | exact .nil | apply Spells.cons)
  · decide +kernel

def lines6 : List String := [
"    \"ύ\"                               -> \"ι\"\n",
"    \"ω\"                               -> \"ο\"\n",
"    \"ώ\"                               -> \"ο\"\n",
"    \"{@}γγ{ε|ι}\"                      -> \"Νγ-\"\n",
"    \"γ{ε|ι}\"                          -> \"Ι\"\n",
"    \"{@}νγ{κ|ξ}\"                      -> \"γ\"\n",
"    \"{@}νκτ\"                          -> \"γκτ\"\n",
"    \"{@}γγ\"                           -> \"Νγ\"\n",
"    \"{@}γκ{@|<s>}\"                    -> \"Νγ\"\n",
"    \"{@}γκ\"                           -> \"Ν\"\n"]

theorem lines6_ok : Part true lang macros vars (str "rewrite") lines6 (str "rewrite") := by
  apply piece_of
  · dsimp only [lines6]; repeat (first | exact .nil | apply Spells.cons)
  · decide +kernel

def lines7 : List String := [
"    \"{@}γ{ξ|χ}\"                       -> \"Ν\"\n",
"    \"γκ\"                              -> \"γ\"\n",
"    \"μπ{τ}\"                           -> \"μ\"\n",
"    \"{@}μπ\"                           -> \"μβ\"\n",
"    \"{@}μπ\"                           -> \"μβ\"\n",
"    \"μπ\"                              -> \"β\"\n",
"    \"{@}ν{γ|κ|χ}\"                     -> \"Ν\"\n",
"    \"{@}ντζ\"                          -> \"νζ\"\n",
"    \"{@}ντσ\"                          -> \"νΤ\"\n",
"    \"{@}ντ\"                           -> \"νδ\"\n"]

theorem lines7_ok : Part true lang macros vars (str "rewrite") lines7 (str "rewrite") := by
  apply piece_of
  · dsimp only [lines7]; repeat (first | exact .nil | apply Spells.cons)
  · decide +kernel

def lines8 : List String := [
"    \"ντ\"                              -> \"δ\"\n",
"    \"τζ\"                              -> \"ζ\"\n",
"    \"τσ\"                              -> \"Τ\"\n",
"    \"ξ\"                               -> \"κσ\"\n",
"    \"ψ\"                               -> \"πσ\"\n",
"    \"ββ\"                              -> \"β\"\n",
"    \"γγ\"                              -> \"γ\"\n",
"    \"δδ\"                              -> \"δ\"\n",
"    \"ζζ\"                              -> \"ζ\"\n",
"    \"θθ\"                              -> \"θ\"\n"]

theorem lines8_ok : Part true lang macros vars (str "rewrite") lines8 (str "rewrite") := by
  apply piece_of
  · dsimp only [lines8]; repeat (first | exact .nil | apply Spells.cons)
  · decide +kernel

def lines9 : List String := [
"    \"κκ\"                              -> \"κ\"\n",
"    \"^κχ\"                             -> \"Χ\"\n",
"    \"κχ{β|γ|δ|ζ|κ|μ|ξ|π|σ|φ|χ|ψ|Ι|Τ}\" -> \"Χ\"\n",
"    \"λλ\"                              -> \"λ\"\n",
"    \"μμ\"                              -> \"μ\"\n",
"    \"νν\"                              -> \"ν\"\n",
"    \"ππ\"                              -> \"π\"\n",
"    \"πφ\"                              -> \"φ\"\n",
"    \"ρρ\"                              -> \"ρ\"\n",
"    \"σσ\"                              -> \"σ\"\n"]

theorem lines9_ok : Part true lang macros vars (str "rewrite") lines9 (str "rewrite") := by
  apply piece_of
  · dsimp only [lines9]; repeat (first | exact .nil | apply Spells.cons)
  · decide +kernel

def lines10 : List String := [
"    \"ττ\"                              -> \"τ\"\n",
"    \"τθ\"                              -> \"θ\"\n",
"    \"φφ\"                              -> \"φ\"\n",
"    \"χχ\"                              -> \"χ\"\n",
"    \"^κ\"                              -> \"κ;\"\n",
"    \"{<cs>}κ\"                         -> \"κ;\"\n",
"    \"κ{<vl>}\"                         -> \"κ,\"\n",
"    \"^π\"                              -> \"π;\"\n",
"    \"{<cs>}π\"                         -> \"π;\"\n",
"    \"π{<vl>}\"                         -> \"π,\"\n"]

theorem lines10_ok : Part true lang macros vars (str "rewrite") lines10 (str "rewrite") := by
  apply piece_of
  · dsimp only [lines10]; repeat (first | exact .nil | apply Spells.cons)
  · decide +kernel

def lines11 : List String := [
"    \";\"                               -> \"\"\n",
"    \"Χ\"                               -> \"κ\"\n",
"    \"^λ\"                              -> \"λ;\"\n",
"    \"^μ\"                              -> \"μ;\"\n",
"    \"^ν\"                              -> \"ν;\"\n",
"    \"λ$\"                              -> \"λ,\"\n",
"    \"μ$\"                              -> \"μ,\"\n",
"    \"ν$\"                              -> \"ν,\"\n",
"    \"λ{@|μ,|ν,}\"                      -> \"λ;\"\n",
"    \"μ{@}\"                            -> \"μ;\"\n"]

theorem lines11_ok : Part true lang macros vars (str "rewrite") lines11 (str "rewrite") := by
  apply piece_of
  · dsimp only [lines11]; repeat (first | exact .nil | apply Spells.cons)
  · decide +kernel

def lines12 : List String := [
"    \"ν{@}\"                            -> \"ν;\"\n",
"    \"λ\"                               -> \"λ,\"\n",
"    \"μ\"                               -> \"μ,\"\n",
"    \"ν\"                               -> \"ν,\"\n",
"    \"Ν\"                               -> \"Ν,\"\n",
"    \",,\"                              -> \",\"\n",
"    \",;\"                              -> \"\"\n",
"    \",λ,\"                             -> \"λ,\"\n",
"    \",μ,\"                             -> \"μ,\"\n",
"    \",ν,\"                             -> \"ν,\"\n"]

theorem lines12_ok : Part true lang macros vars (str "rewrite") lines12 (str "rewrite") := by
  apply piece_of
  · dsimp only [lines12]; repeat (first | exact .nil | apply Spells.cons)
  · decide +kernel

def lines13 : List String := [
"    \"λ{μ;|ν;}\"                        -> \"λ,\"\n",
"    \";\"                               -> \"\"\n",
"    \"{<cs>}Ι\"                         -> \"ΨΙ\"\n",
"\n"]

theorem lines13_ok : Part true lang macros vars (str "rewrite") lines13 (str "rewrite") := by
  apply piece_of
  · dsimp only [lines13]; repeat (first | exact .nil | apply Spells.cons)
  · decide +kernel

def lines14 : List String := [
"transcribe:\n",
"    \"β\"    -> \"ㅂ\"\n",
"    \"γ\"    -> \"ㄱ\"\n",
"    \"δ\"    -> \"ㄷ\"\n",
"    \"ζ\"    -> \"ㅈ\"\n",
"    \"θ\"    -> \"ㅌ\"\n",
"    \"κ,\"   -> \"-ㄱ\"\n",
"    \"κ\"    -> \"ㅋ\"\n",
"    \"^λ\"   -> \"ㄹ\"\n",
"    \"{,}λ\" -> \"ㄹ\"\n",
"    \"λ,\"   -> \"-ㄹ\"\n"]

theorem lines14_ok : Part true lang macros vars (str "rewrite") lines14 (str "transcribe") := by
  apply piece_of
  · dsimp only [lines14]; repeat (first | exact .nil | apply Spells.cons)
  · decide +kernel

def lines15 : List String := [
"    \"λ\"    -> \"-ㄹㄹ\"\n",
"    \"μ,\"   -> \"-ㅁ\"\n",
"    \"μ\"    -> \"ㅁ\"\n",
"    \"ν,\"   -> \"-ㄴ\"\n",
"    \"ν\"    -> \"ㄴ\"\n",
"    \"Ν\"    -> \"-ㅇ\"\n",
"    \"π,\"   -> \"-ㅂ\"\n",
"    \"π\"    -> \"ㅍ\"\n",
"    \"ρ\"    -> \"ㄹ\"\n",
"    \"σ\"    -> \"ㅅ\"\n"]

theorem lines15_ok : Part true lang macros vars (str "transcribe") lines15 (str "transcribe") := by
  apply piece_of
  · dsimp only [lines15]; repeat (first | exact .nil | apply Spells.cons)
  · decide +kernel

def lines16 : List String := [
"    \"τ\"    -> \"ㅌ\"\n",
"    \"Τ\"    -> \"ㅊ\"\n",
"    \"φ\"    -> \"ㅍ\"\n",
"    \"χ\"    -> \"ㅎ\"\n",
"    \"Ια\"   -> \"ㅑ\"\n",
"    \"Ιε\"   -> \"ㅖ\"\n",
"    \"Ιι\"   -> \"ㅣ\"\n",
"    \"Ιο\"   -> \"ㅛ\"\n",
"    \"ΙΥ\"   -> \"ㅠ\"\n",
"    \"α\"    -> \"ㅏ\"\n"]

theorem lines16_ok : Part true lang macros vars (str "transcribe") lines16 (str "transcribe") := by
  apply piece_of
  · dsimp only [lines16]; repeat (first | exact .nil | apply Spells.cons)
  · decide +kernel

end Verif.Specs.Ell
