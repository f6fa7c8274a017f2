import Verif.Model.App

/-!
# The HTML of the status page: `app/status_page.cpp`

Not modelled: the style sheet and the other constant text before the first number (`head`, any octets), the octets
of the bullet in the footer (`bullet`). The text of the average latency (`avg`) is `averageText` of `Model/Average.lean`.
-/

namespace Ion

/-- The constant text of the page that is not spelt out here: what comes before the uptime
(app/status_page.cpp:49-208), and the bullet (app/status_page.cpp:231). -/
structure PageText where
  head : Bytes
  bullet : Bytes
  version : Bytes
  instanceId : Bytes

/-- One status code (app/status_page.cpp:221-222). -/
def badge (e : UInt16 × UInt64) : Bytes :=
  b!"<div class='code-badge'><span class='code-num'>" ++ decimal e.1.toNat ++ b!"</span>" ++ decimal e.2.toNat ++
    b!"</div>"

/-- The list of status codes (app/status_page.cpp:217-224). -/
def badges (codes : List (UInt16 × UInt64)) : Bytes :=
  if codes = [] then b!"<em>No requests yet</em>" else (codes.map badge).flatten

/-- The page (app/status_page.cpp:48-237). -/
def renderPage (text : PageText) (avg : Int → UInt64 → Bytes) : Page := fun uptime total durationUs codes =>
  text.head ++ uptime ++
  b!"</span></div>\n            <div class=\"stat-item\"><span class=\"label\">Requests</span><span class=\"value\">" ++
  decimal total.toNat ++
  b!"</span></div>\n            <div class=\"stat-item\"><span class=\"label\">Avg Latency</span><span class=\"value\">" ++
  avg durationUs total ++
  b!"ms</span></div>\n        </div>\n\n        <h3>HTTP Status Codes</h3>\n        <div class=\"code-list\">" ++
  badges codes ++
  b!"\n        </div>\n    </div>\n    <div class=\"footer\">\n        powered by <a href=\"https://github.com/rhargreaves/ion\">ion</a> v" ++
  text.version ++ b!" " ++ text.bullet ++ b!" instance id: " ++ text.instanceId ++
  b!"\n    </div>\n</body>\n</html>\n"

/-- `generate_id` (app/server_stats.cpp:6-14): a random number in eight hexadecimal digits. -/
def instanceId (n : UInt32) : Bytes :=
  (List.range 8).map fun i =>
    let d := UInt8.ofNat (n.toNat / 16 ^ (7 - i) % 16)
    if d < 10 then 0x30 + d else 0x57 + d

end Ion
