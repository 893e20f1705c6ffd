import Verif.Specs.Aze
import Verif.Specs.Bel
import Verif.Specs.Bul
import Verif.Specs.Cat
import Verif.Specs.Ces
import Verif.Specs.Chi
import Verif.Specs.Cym
import Verif.Specs.Deu
import Verif.Specs.Ell
import Verif.Specs.Epo
import Verif.Specs.Est
import Verif.Specs.Fin
import Verif.Specs.Grc
import Verif.Specs.Hbs
import Verif.Specs.Hun
import Verif.Specs.Isl
import Verif.Specs.Ita
import Verif.Specs.Jpn
import Verif.Specs.JpnCk
import Verif.Specs.Kat1
import Verif.Specs.Kat2
import Verif.Specs.Lat
import Verif.Specs.Lav
import Verif.Specs.Lit
import Verif.Specs.Mkd
import Verif.Specs.Nld
import Verif.Specs.Pol
import Verif.Specs.Por
import Verif.Specs.PorBr
import Verif.Specs.Ron
import Verif.Specs.Rus
import Verif.Specs.Slk
import Verif.Specs.Slv
import Verif.Specs.Spa
import Verif.Specs.Sqi
import Verif.Specs.Swe
import Verif.Specs.Tur
import Verif.Specs.Ukr
import Verif.Specs.Vie
import Verif.Specs.Wlm
import Verif.Model.Api

/-! The bundled specs, generated by tools/gen_specs.py. -/

namespace Verif.Specs

open Hsl

/-- The name, the text and the language of each spec. -/
def table : List (Bytes × Bytes × Language) := [
  (str "aze", text Aze.lines, Aze.lang),
  (str "bel", text Bel.lines, Bel.lang),
  (str "bul", text Bul.lines, Bul.lang),
  (str "cat", text Cat.lines, Cat.lang),
  (str "ces", text Ces.lines, Ces.lang),
  (str "chi", text Chi.lines, Chi.lang),
  (str "cym", text Cym.lines, Cym.lang),
  (str "deu", text Deu.lines, Deu.lang),
  (str "ell", text Ell.lines, Ell.lang),
  (str "epo", text Epo.lines, Epo.lang),
  (str "est", text Est.lines, Est.lang),
  (str "fin", text Fin.lines, Fin.lang),
  (str "grc", text Grc.lines, Grc.lang),
  (str "hbs", text Hbs.lines, Hbs.lang),
  (str "hun", text Hun.lines, Hun.lang),
  (str "isl", text Isl.lines, Isl.lang),
  (str "ita", text Ita.lines, Ita.lang),
  (str "jpn", text Jpn.lines, Jpn.lang),
  (str "jpn-ck", text JpnCk.lines, JpnCk.lang),
  (str "kat-1", text Kat1.lines, Kat1.lang),
  (str "kat-2", text Kat2.lines, Kat2.lang),
  (str "lat", text Lat.lines, Lat.lang),
  (str "lav", text Lav.lines, Lav.lang),
  (str "lit", text Lit.lines, Lit.lang),
  (str "mkd", text Mkd.lines, Mkd.lang),
  (str "nld", text Nld.lines, Nld.lang),
  (str "pol", text Pol.lines, Pol.lang),
  (str "por", text Por.lines, Por.lang),
  (str "por-br", text PorBr.lines, PorBr.lang),
  (str "ron", text Ron.lines, Ron.lang),
  (str "rus", text Rus.lines, Rus.lang),
  (str "slk", text Slk.lines, Slk.lang),
  (str "slv", text Slv.lines, Slv.lang),
  (str "spa", text Spa.lines, Spa.lang),
  (str "sqi", text Sqi.lines, Sqi.lang),
  (str "swe", text Swe.lines, Swe.lang),
  (str "tur", text Tur.lines, Tur.lang),
  (str "ukr", text Ukr.lines, Ukr.lang),
  (str "vie", text Vie.lines, Vie.lang),
  (str "wlm", text Wlm.lines, Wlm.lang)]

theorem table_sound : ∀ x ∈ table, Sound x.2.1 x.2.2 :=
  List.forall_mem_cons.2 ⟨Aze.sound,
  List.forall_mem_cons.2 ⟨Bel.sound,
  List.forall_mem_cons.2 ⟨Bul.sound,
  List.forall_mem_cons.2 ⟨Cat.sound,
  List.forall_mem_cons.2 ⟨Ces.sound,
  List.forall_mem_cons.2 ⟨Chi.sound,
  List.forall_mem_cons.2 ⟨Cym.sound,
  List.forall_mem_cons.2 ⟨Deu.sound,
  List.forall_mem_cons.2 ⟨Ell.sound,
  List.forall_mem_cons.2 ⟨Epo.sound,
  List.forall_mem_cons.2 ⟨Est.sound,
  List.forall_mem_cons.2 ⟨Fin.sound,
  List.forall_mem_cons.2 ⟨Grc.sound,
  List.forall_mem_cons.2 ⟨Hbs.sound,
  List.forall_mem_cons.2 ⟨Hun.sound,
  List.forall_mem_cons.2 ⟨Isl.sound,
  List.forall_mem_cons.2 ⟨Ita.sound,
  List.forall_mem_cons.2 ⟨Jpn.sound,
  List.forall_mem_cons.2 ⟨JpnCk.sound,
  List.forall_mem_cons.2 ⟨Kat1.sound,
  List.forall_mem_cons.2 ⟨Kat2.sound,
  List.forall_mem_cons.2 ⟨Lat.sound,
  List.forall_mem_cons.2 ⟨Lav.sound,
  List.forall_mem_cons.2 ⟨Lit.sound,
  List.forall_mem_cons.2 ⟨Mkd.sound,
  List.forall_mem_cons.2 ⟨Nld.sound,
  List.forall_mem_cons.2 ⟨Pol.sound,
  List.forall_mem_cons.2 ⟨Por.sound,
  List.forall_mem_cons.2 ⟨PorBr.sound,
  List.forall_mem_cons.2 ⟨Ron.sound,
  List.forall_mem_cons.2 ⟨Rus.sound,
  List.forall_mem_cons.2 ⟨Slk.sound,
  List.forall_mem_cons.2 ⟨Slv.sound,
  List.forall_mem_cons.2 ⟨Spa.sound,
  List.forall_mem_cons.2 ⟨Sqi.sound,
  List.forall_mem_cons.2 ⟨Swe.sound,
  List.forall_mem_cons.2 ⟨Tur.sound,
  List.forall_mem_cons.2 ⟨Ukr.sound,
  List.forall_mem_cons.2 ⟨Vie.sound,
  List.forall_mem_cons.2 ⟨Wlm.sound,
  by simp⟩⟩⟩⟩⟩⟩⟩⟩⟩⟩⟩⟩⟩⟩⟩⟩⟩⟩⟩⟩⟩⟩⟩⟩⟩⟩⟩⟩⟩⟩⟩⟩⟩⟩⟩⟩⟩⟩⟩⟩

/-- specs.go:15-16: the embedded files. -/
def bundled : Files := fun lang => (table.find? (·.1 = lang)).map (·.2.1)

/-- The entries of the embedded directory. -/
def entries : List Bytes := table.map fun x => x.1 ++ ext

end Verif.Specs
