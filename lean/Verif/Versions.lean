import Verif.Cli
import Verif.Templates

/-!
# Versions of the specification (`api.py`, `file.py`)

The functions of `File.lean` leave out the parameter `version`, which the code hands down from `check_aasx_file` to `check_json_data` and
`check_xml_data`, where it ends. Here are the four entry points with this parameter.
-/

namespace Verif.Versions
open Verif Verif.Parse Verif.Api

/-- api.py 9, file.py 15 -/
def defaultVersion : Str := py!"3.0"
/-- api.py 16-17 and file.py 22-23 `latest_version` -/
def latestVersion : Str := defaultVersion

/-- submodel_templates.py 351-352 `supported_templates` -/
def supportedTemplates : List Str := Templates.templates.map (·.1)

/-- file.py 18-19 `supported_versions`; that of api.py 12-13 is `Cli.supportedVersions` -/
def fileVersions : List (Str × List Str) := [(py!"3.0", supportedTemplates)]

/-- file.py 31-36 `check_json_file` -/
def checkJsonFile (g : File.Engine Json Xml) (file : File.Content Json Xml) (_version modelType : Str) : Except PyExc (Res Str) :=
  File.checkJsonFile g file modelType

/-- file.py 46-51 `check_xml_file` -/
def checkXmlFile (g : File.Engine Json Xml) (file : File.Content Json Xml) (_version modelType : Str) : Except PyExc (Res Str) :=
  File.checkXmlFile g file modelType

/-- file.py 110-116 `check_aasx_file` -/
def checkAasxFile (g : File.Engine Json Xml) (file : Except Str (Opc.Zip × (Str → File.Content Json Xml))) (_version : Str) : Except PyExc (Res Str) :=
  File.checkAasxFile g file

end Verif.Versions
