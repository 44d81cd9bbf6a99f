import Verif.Props.Result
import Verif.Props.Context
import Verif.Props.Config
import Verif.Props.Dates
import Verif.Props.Numbers
import Verif.Props.Text
import Verif.Props.Http
import Verif.Props.Opc
import Verif.Props.File
import Verif.Props.Parse
import Verif.Props.Strings
import Verif.Props.Names
import Verif.Props.Constraints
import Verif.CheckTable
import Verif.Props.Document
import Verif.Props.Xml
import Verif.Props.Paths
import Verif.Props.Templates
import Verif.Props.Reflect
import Verif.Props.Engine
import Verif.Props.Generate
import Verif.Props.Responses
import Verif.Props.Bodies
import Verif.Props.Api
import Verif.Props.Suites
import Verif.Props.SuiteSamples
import Verif.Props.Positive
import Verif.Props.Setups
import Verif.Props.Compliant
import Verif.Props.CompliantSamples
import Verif.Props.Cli
import Verif.Props.JsonText
import Verif.Props.JsonDumps
import Verif.KindLemmas
import Verif.StripLemmas
import Verif.Props.Kinds
import Verif.Props.Values
import Verif.Props.XmlAccepted
import Verif.Props.EndToEnd
import Verif.Props.Levels
import Verif.Props.Flaws
import Verif.Props.Faults
import Verif.Props.Formats
import Verif.Props.Parts
import Verif.Props.XmlParts
import Verif.Props.Places
import Verif.Props.Repair
import Verif.Props.RepairRules
import Verif.Props.Messages
import Verif.Props.Telling
import Verif.Props.TemplateTelling
import Verif.Props.Bin
import Verif.Props.Versions
import Verif.Props.Servers
import Verif.Props.Sdks
import Verif.Props.Dump
import Verif.Props.Metamodel
import Verif.Props.MetamodelXml
import Verif.Props.Requests
import Verif.Props.RequestsReached
import Verif.Props.Packages
import Verif.Props.Unused
import Verif.Props.Alone
import Verif.Props.Mentioned
import Verif.Props.Digits
