import Verif.Props.Jamo
import Verif.Props.Subword
import Verif.Props.Hre
import Verif.Props.Lookaround
import Verif.Props.Scan
import Verif.Props.Vars
import Verif.Props.Hsl
import Verif.Props.SpecFile
import Verif.Props.Procedure
import Verif.Props.Reference
import Verif.Props.Api
import Verif.Props.Translit
import Verif.Props.Cli
import Verif.Props.Script
import Verif.Props.Cyrillic
import Verif.Props.Traces
import Verif.Props.Check
import Verif.Props.Bundle
import Verif.Props.Laid
import Verif.Spec.Case
import Verif.Spec.SameCase
import Verif.Proofs.CaseCheck
import Verif.Proofs.CaseText
import Verif.Proofs.CaseLetters
import Verif.Props.Case
import Verif.Props.CaseTranslit
import Verif.Props.Chinese
import Verif.Props.Canonical
import Verif.Props.Kana
import Verif.Props.Growth
import Verif.Props.Output
import Verif.Go.Js
import Verif.Model.Wasm
import Verif.Spec.Wasm
import Verif.Proofs.Js
import Verif.Proofs.JsBroken
import Verif.Proofs.Wasm
import Verif.Proofs.DocText
import Verif.Proofs.JsText
import Verif.Props.Wasm
import Verif.Props.Authors
import Verif.Go.Json
import Verif.Model.Manifest
import Verif.Spec.Json
import Verif.Proofs.Json
import Verif.Proofs.Manifest
import Verif.Props.Manifest
import Verif.Model.Commands
import Verif.Spec.Table
import Verif.Props.Commands
import Verif.Model.Hook
import Verif.Proofs.Hook
import Verif.Props.Hook
import Verif.Model.Zoom
import Verif.Spec.Zoom
import Verif.Proofs.Zoom
import Verif.Props.Zoom
import Verif.Model.Address
import Verif.Proofs.Address
import Verif.Props.Address
import Verif.Model.App
import Verif.Spec.App
import Verif.Proofs.App
import Verif.Props.App
import Verif.Props.Site
import Verif.Props.Search
import Verif.Props.Workers
import Verif.Props.Goroutines
import Verif.Spec.Words
import Verif.Spec.Wordwise
import Verif.Proofs.WordRun
import Verif.Proofs.WordShape
import Verif.Proofs.WordFind
import Verif.Proofs.WordSearch
import Verif.Proofs.WordPattern
import Verif.Proofs.WordMatch
import Verif.Proofs.WordText
import Verif.Proofs.WordWhole
import Verif.Proofs.WordReplace
import Verif.Props.Words
import Verif.Spec.Signs
import Verif.Spec.Foreign
import Verif.Proofs.Alive
import Verif.Proofs.ForeignText
import Verif.Proofs.Blind
import Verif.Proofs.BlindText
import Verif.Props.Foreign
import Verif.Props.Blanks
import Verif.Spec.Expr
import Verif.Proofs.Expr
import Verif.Proofs.ExprPattern
import Verif.Props.Expr
import Verif.Proofs.Split
import Verif.Proofs.ExprLook
import Verif.Proofs.ExprWhole
import Verif.Props.ExprWhole
import Verif.Spec.Choice
import Verif.Spec.Groups
import Verif.Proofs.ExprOrder
import Verif.Proofs.Choice
import Verif.Proofs.ChoiceWhole
import Verif.Proofs.GroupsParse
import Verif.Proofs.Groups
import Verif.Proofs.GroupsWhole
import Verif.Props.Choice
import Verif.Props.Groups
