import Verif.Model.Response
/-!
# Model of src/oidcrp/provider/github.py and src/oidcrp/provider/linkedin.py

The services for GitHub and LinkedIn are the OAuth2 token service and the OIDC user info service with other message classes
(external, part of `Ext`) and other values of class attributes.  A class attribute has the effect of the entry of the same
name in the configuration of the service (service.py:74-78), and is modelled by it.
-/

namespace Verif.Provider
open Verif

/-- `github.AccessToken` (provider/github.py:21-25). -/
def githubAccessToken : Obj := [("response_body_type", .str "urlencoded")]

/-- `github.UserInfo` (provider/github.py:28-32). -/
def githubUserInfo : Obj := [("default_authn_method", .str ""), ("http_method", .str "GET")]

/-- `linkedin.AccessToken` (provider/linkedin.py:32-35). -/
def linkedinAccessToken : Obj := []

/-- `linkedin.UserInfo` (provider/linkedin.py:38-39). -/
def linkedinUserInfo : Obj := []

end Verif.Provider
