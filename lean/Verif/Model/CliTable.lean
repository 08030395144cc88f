import Verif.Model.Cli
/-!
Generated by `tools/cli_table.py`: the entries of `pymap3d.__all__` (`/repo/src/pymap3d/__init__.py` 162-294) with their
signatures; the comment after each entry is the file and line of its definition.
-/
namespace Pymap3d

/-- `__init__.py` 162-294 -/
def exportTable : List ExportEntry := [
  { name := "aer2ecef", variadic := false, hasDoc := true, params := [⟨"az", false, none⟩, ⟨"el", false, none⟩, ⟨"srange", false, none⟩, ⟨"lat0", false, none⟩, ⟨"lon0", false, none⟩, ⟨"alt0", false, none⟩, ⟨"ell", false, some .none⟩, ⟨"deg", false, some (.bool true)⟩] }, -- aer.py 291
  { name := "aer2geodetic", variadic := false, hasDoc := true, params := [⟨"az", false, none⟩, ⟨"el", false, none⟩, ⟨"srange", false, none⟩, ⟨"lat0", false, none⟩, ⟨"lon0", false, none⟩, ⟨"h0", false, none⟩, ⟨"ell", false, some .none⟩, ⟨"deg", false, some (.bool true)⟩] }, -- aer.py 119
  { name := "ecef2aer", variadic := false, hasDoc := true, params := [⟨"x", false, none⟩, ⟨"y", false, none⟩, ⟨"z", false, none⟩, ⟨"lat0", false, none⟩, ⟨"lon0", false, none⟩, ⟨"h0", false, none⟩, ⟨"ell", false, some .none⟩, ⟨"deg", false, some (.bool true)⟩] }, -- aer.py 21
  { name := "geodetic2aer", variadic := false, hasDoc := true, params := [⟨"lat", false, none⟩, ⟨"lon", false, none⟩, ⟨"h", false, none⟩, ⟨"lat0", false, none⟩, ⟨"lon0", false, none⟩, ⟨"h0", false, none⟩, ⟨"ell", false, some .none⟩, ⟨"deg", false, some (.bool true)⟩] }, -- aer.py 71
  { name := "body_matrix", variadic := false, hasDoc := true, params := [⟨"yaw", false, none⟩, ⟨"pitch", false, none⟩, ⟨"roll", false, none⟩, ⟨"sequence", false, some (.str "zyx")⟩, ⟨"deg", false, some (.bool true)⟩] }, -- body.py 52
  { name := "ned2body_matrix", variadic := false, hasDoc := true, params := [⟨"yaw", false, none⟩, ⟨"pitch", false, none⟩, ⟨"roll", false, none⟩, ⟨"sequence", false, some (.str "zyx")⟩, ⟨"deg", false, some (.bool true)⟩] }, -- body.py 64
  { name := "body2ned_matrix", variadic := false, hasDoc := true, params := [⟨"yaw", false, none⟩, ⟨"pitch", false, none⟩, ⟨"roll", false, none⟩, ⟨"sequence", false, some (.str "zyx")⟩, ⟨"deg", false, some (.bool true)⟩] }, -- body.py 70
  { name := "enu2body_matrix", variadic := false, hasDoc := true, params := [⟨"yaw", false, none⟩, ⟨"pitch", false, none⟩, ⟨"roll", false, none⟩, ⟨"sequence", false, some (.str "zyx")⟩, ⟨"deg", false, some (.bool true)⟩] }, -- body.py 76
  { name := "body2enu_matrix", variadic := false, hasDoc := true, params := [⟨"yaw", false, none⟩, ⟨"pitch", false, none⟩, ⟨"roll", false, none⟩, ⟨"sequence", false, some (.str "zyx")⟩, ⟨"deg", false, some (.bool true)⟩] }, -- body.py 82
  { name := "ned2body", variadic := false, hasDoc := true, params := [⟨"n", false, none⟩, ⟨"e", false, none⟩, ⟨"d", false, none⟩, ⟨"yaw", false, none⟩, ⟨"pitch", false, none⟩, ⟨"roll", false, none⟩, ⟨"sequence", false, some (.str "zyx")⟩, ⟨"deg", false, some (.bool true)⟩] }, -- body.py 112
  { name := "body2ned", variadic := false, hasDoc := true, params := [⟨"xb", false, none⟩, ⟨"yb", false, none⟩, ⟨"zb", false, none⟩, ⟨"yaw", false, none⟩, ⟨"pitch", false, none⟩, ⟨"roll", false, none⟩, ⟨"sequence", false, some (.str "zyx")⟩, ⟨"deg", false, some (.bool true)⟩] }, -- body.py 118
  { name := "enu2body", variadic := false, hasDoc := true, params := [⟨"e", false, none⟩, ⟨"n", false, none⟩, ⟨"u", false, none⟩, ⟨"yaw", false, none⟩, ⟨"pitch", false, none⟩, ⟨"roll", false, none⟩, ⟨"sequence", false, some (.str "zyx")⟩, ⟨"deg", false, some (.bool true)⟩] }, -- body.py 124
  { name := "body2enu", variadic := false, hasDoc := true, params := [⟨"xb", false, none⟩, ⟨"yb", false, none⟩, ⟨"zb", false, none⟩, ⟨"yaw", false, none⟩, ⟨"pitch", false, none⟩, ⟨"roll", false, none⟩, ⟨"sequence", false, some (.str "zyx")⟩, ⟨"deg", false, some (.bool true)⟩] }, -- body.py 130
  { name := "sez2body", variadic := false, hasDoc := true, params := [⟨"s", false, none⟩, ⟨"e", false, none⟩, ⟨"z", false, none⟩, ⟨"yaw", false, none⟩, ⟨"pitch", false, none⟩, ⟨"roll", false, none⟩, ⟨"sequence", false, some (.str "zyx")⟩, ⟨"deg", false, some (.bool true)⟩] }, -- body.py 136
  { name := "body2sez", variadic := false, hasDoc := true, params := [⟨"xb", false, none⟩, ⟨"yb", false, none⟩, ⟨"zb", false, none⟩, ⟨"yaw", false, none⟩, ⟨"pitch", false, none⟩, ⟨"roll", false, none⟩, ⟨"sequence", false, some (.str "zyx")⟩, ⟨"deg", false, some (.bool true)⟩] }, -- body.py 142
  { name := "nwu2body", variadic := false, hasDoc := true, params := [⟨"n", false, none⟩, ⟨"w", false, none⟩, ⟨"u", false, none⟩, ⟨"yaw", false, none⟩, ⟨"pitch", false, none⟩, ⟨"roll", false, none⟩, ⟨"sequence", false, some (.str "zyx")⟩, ⟨"deg", false, some (.bool true)⟩] }, -- body.py 148
  { name := "body2nwu", variadic := false, hasDoc := true, params := [⟨"xb", false, none⟩, ⟨"yb", false, none⟩, ⟨"zb", false, none⟩, ⟨"yaw", false, none⟩, ⟨"pitch", false, none⟩, ⟨"roll", false, none⟩, ⟨"sequence", false, some (.str "zyx")⟩, ⟨"deg", false, some (.bool true)⟩] }, -- body.py 154
  { name := "sez2body_matrix", variadic := false, hasDoc := true, params := [⟨"yaw", false, none⟩, ⟨"pitch", false, none⟩, ⟨"roll", false, none⟩, ⟨"sequence", false, some (.str "zyx")⟩, ⟨"deg", false, some (.bool true)⟩] }, -- body.py 88
  { name := "body2sez_matrix", variadic := false, hasDoc := true, params := [⟨"yaw", false, none⟩, ⟨"pitch", false, none⟩, ⟨"roll", false, none⟩, ⟨"sequence", false, some (.str "zyx")⟩, ⟨"deg", false, some (.bool true)⟩] }, -- body.py 94
  { name := "nwu2body_matrix", variadic := false, hasDoc := true, params := [⟨"yaw", false, none⟩, ⟨"pitch", false, none⟩, ⟨"roll", false, none⟩, ⟨"sequence", false, some (.str "zyx")⟩, ⟨"deg", false, some (.bool true)⟩] }, -- body.py 100
  { name := "body2nwu_matrix", variadic := false, hasDoc := true, params := [⟨"yaw", false, none⟩, ⟨"pitch", false, none⟩, ⟨"roll", false, none⟩, ⟨"sequence", false, some (.str "zyx")⟩, ⟨"deg", false, some (.bool true)⟩] }, -- body.py 106
  { name := "ecef2body", variadic := false, hasDoc := true, params := [⟨"x", false, none⟩, ⟨"y", false, none⟩, ⟨"z", false, none⟩, ⟨"lat0", false, none⟩, ⟨"lon0", false, none⟩, ⟨"h0", false, none⟩, ⟨"yaw", false, none⟩, ⟨"pitch", false, none⟩, ⟨"roll", false, none⟩, ⟨"ell", false, some .none⟩, ⟨"frame", false, some (.str "ned")⟩, ⟨"sequence", false, some (.str "zyx")⟩, ⟨"deg", false, some (.bool true)⟩] }, -- body.py 160
  { name := "body2ecef", variadic := false, hasDoc := true, params := [⟨"xb", false, none⟩, ⟨"yb", false, none⟩, ⟨"zb", false, none⟩, ⟨"lat0", false, none⟩, ⟨"lon0", false, none⟩, ⟨"h0", false, none⟩, ⟨"yaw", false, none⟩, ⟨"pitch", false, none⟩, ⟨"roll", false, none⟩, ⟨"ell", false, some .none⟩, ⟨"frame", false, some (.str "ned")⟩, ⟨"sequence", false, some (.str "zyx")⟩, ⟨"deg", false, some (.bool true)⟩] }, -- body.py 193
  { name := "ecef2bodyv", variadic := false, hasDoc := true, params := [⟨"x", false, none⟩, ⟨"y", false, none⟩, ⟨"z", false, none⟩, ⟨"lat0", false, none⟩, ⟨"lon0", false, none⟩, ⟨"yaw", false, none⟩, ⟨"pitch", false, none⟩, ⟨"roll", false, none⟩, ⟨"frame", false, some (.str "ned")⟩, ⟨"sequence", false, some (.str "zyx")⟩, ⟨"deg", false, some (.bool true)⟩] }, -- body.py 226
  { name := "body2ecefv", variadic := false, hasDoc := true, params := [⟨"xb", false, none⟩, ⟨"yb", false, none⟩, ⟨"zb", false, none⟩, ⟨"lat0", false, none⟩, ⟨"lon0", false, none⟩, ⟨"yaw", false, none⟩, ⟨"pitch", false, none⟩, ⟨"roll", false, none⟩, ⟨"frame", false, some (.str "ned")⟩, ⟨"sequence", false, some (.str "zyx")⟩, ⟨"deg", false, some (.bool true)⟩] }, -- body.py 247
  { name := "geodetic2body", variadic := false, hasDoc := true, params := [⟨"lat", false, none⟩, ⟨"lon", false, none⟩, ⟨"h", false, none⟩, ⟨"lat0", false, none⟩, ⟨"lon0", false, none⟩, ⟨"h0", false, none⟩, ⟨"yaw", false, none⟩, ⟨"pitch", false, none⟩, ⟨"roll", false, none⟩, ⟨"ell", false, some .none⟩, ⟨"frame", false, some (.str "ned")⟩, ⟨"sequence", false, some (.str "zyx")⟩, ⟨"deg", false, some (.bool true)⟩] }, -- body.py 268
  { name := "body2geodetic", variadic := false, hasDoc := true, params := [⟨"xb", false, none⟩, ⟨"yb", false, none⟩, ⟨"zb", false, none⟩, ⟨"lat0", false, none⟩, ⟨"lon0", false, none⟩, ⟨"h0", false, none⟩, ⟨"yaw", false, none⟩, ⟨"pitch", false, none⟩, ⟨"roll", false, none⟩, ⟨"ell", false, some .none⟩, ⟨"frame", false, some (.str "ned")⟩, ⟨"sequence", false, some (.str "zyx")⟩, ⟨"deg", false, some (.bool true)⟩] }, -- body.py 301
  { name := "ecef2enu", variadic := false, hasDoc := true, params := [⟨"x", false, none⟩, ⟨"y", false, none⟩, ⟨"z", false, none⟩, ⟨"lat0", false, none⟩, ⟨"lon0", false, none⟩, ⟨"h0", false, none⟩, ⟨"ell", false, some .none⟩, ⟨"deg", false, some (.bool true)⟩] }, -- ecef.py 298
  { name := "ecef2enuv", variadic := false, hasDoc := true, params := [⟨"u", false, none⟩, ⟨"v", false, none⟩, ⟨"w", false, none⟩, ⟨"lat0", false, none⟩, ⟨"lon0", false, none⟩, ⟨"deg", false, some (.bool true)⟩] }, -- ecef.py 256
  { name := "ecef2geodetic", variadic := false, hasDoc := true, params := [⟨"x", false, none⟩, ⟨"y", false, none⟩, ⟨"z", false, none⟩, ⟨"ell", false, some .none⟩, ⟨"deg", false, some (.bool true)⟩] }, -- ecef.py 91
  { name := "eci2geodetic", variadic := false, hasDoc := true, params := [⟨"x", false, none⟩, ⟨"y", false, none⟩, ⟨"z", false, none⟩, ⟨"t", false, none⟩, ⟨"ell", false, some .none⟩, ⟨"deg", false, some (.bool true)⟩, ⟨"delta_ut1", false, some (.flt 0 true 1)⟩, ⟨"xp", false, some (.flt 0 true 1)⟩, ⟨"yp", false, some (.flt 0 true 1)⟩] }, -- ecef.py 445
  { name := "enu2ecef", variadic := false, hasDoc := true, params := [⟨"e1", false, none⟩, ⟨"n1", false, none⟩, ⟨"u1", false, none⟩, ⟨"lat0", false, none⟩, ⟨"lon0", false, none⟩, ⟨"h0", false, none⟩, ⟨"ell", false, some .none⟩, ⟨"deg", false, some (.bool true)⟩] }, -- ecef.py 555
  { name := "enu2uvw", variadic := false, hasDoc := true, params := [⟨"east", false, none⟩, ⟨"north", false, none⟩, ⟨"up", false, none⟩, ⟨"lat0", false, none⟩, ⟨"lon0", false, none⟩, ⟨"deg", false, some (.bool true)⟩] }, -- ecef.py 344
  { name := "geodetic2ecef", variadic := false, hasDoc := true, params := [⟨"lat", false, none⟩, ⟨"lon", false, none⟩, ⟨"alt", false, none⟩, ⟨"ell", false, some .none⟩, ⟨"deg", false, some (.bool true)⟩] }, -- ecef.py 35
  { name := "geodetic2eci", variadic := false, hasDoc := true, params := [⟨"lat", false, none⟩, ⟨"lon", false, none⟩, ⟨"alt", false, none⟩, ⟨"t", false, none⟩, ⟨"ell", false, some .none⟩, ⟨"deg", false, some (.bool true)⟩, ⟨"delta_ut1", false, some (.flt 0 true 1)⟩, ⟨"xp", false, some (.flt 0 true 1)⟩, ⟨"yp", false, some (.flt 0 true 1)⟩] }, -- ecef.py 500
  { name := "uvw2enu", variadic := false, hasDoc := true, params := [⟨"u", false, none⟩, ⟨"v", false, none⟩, ⟨"w", false, none⟩, ⟨"lat0", false, none⟩, ⟨"lon0", false, none⟩, ⟨"deg", false, some (.bool true)⟩] }, -- ecef.py 398
  { name := "Ellipsoid", isClass := true }, -- ellipsoid.py 22
  { name := "aer2enu", variadic := false, hasDoc := true, params := [⟨"az", false, none⟩, ⟨"el", false, none⟩, ⟨"srange", false, none⟩, ⟨"deg", false, some (.bool true)⟩] }, -- enu.py 81
  { name := "enu2aer", variadic := false, hasDoc := true, params := [⟨"e", false, none⟩, ⟨"n", false, none⟩, ⟨"u", false, none⟩, ⟨"deg", false, some (.bool true)⟩] }, -- enu.py 25
  { name := "enu2geodetic", variadic := false, hasDoc := true, params := [⟨"e", false, none⟩, ⟨"n", false, none⟩, ⟨"u", false, none⟩, ⟨"lat0", false, none⟩, ⟨"lon0", false, none⟩, ⟨"h0", false, none⟩, ⟨"ell", false, some .none⟩, ⟨"deg", false, some (.bool true)⟩] }, -- enu.py 115
  { name := "enu2ecefv", variadic := false, hasDoc := true, params := [⟨"e", false, none⟩, ⟨"n", false, none⟩, ⟨"u", false, none⟩, ⟨"lat0", false, none⟩, ⟨"lon0", false, none⟩, ⟨"deg", false, some (.bool true)⟩] }, -- enu.py 209
  { name := "geodetic2enu", variadic := false, hasDoc := true, params := [⟨"lat", false, none⟩, ⟨"lon", false, none⟩, ⟨"h", false, none⟩, ⟨"lat0", false, none⟩, ⟨"lon0", false, none⟩, ⟨"h0", false, none⟩, ⟨"ell", false, some .none⟩, ⟨"deg", false, some (.bool true)⟩] }, -- enu.py 163
  { name := "ecef2enu_matrix", variadic := false, hasDoc := true, params := [⟨"lat0", false, none⟩, ⟨"lon0", false, none⟩, ⟨"deg", false, some (.bool true)⟩] }, -- enu.py 251
  { name := "enu2ecef_matrix", variadic := false, hasDoc := true, params := [⟨"lat0", false, none⟩, ⟨"lon0", false, none⟩, ⟨"deg", false, some (.bool true)⟩] }, -- enu.py 259
  { name := "aer2ned", variadic := false, hasDoc := true, params := [⟨"az", false, none⟩, ⟨"elev", false, none⟩, ⟨"slantRange", false, none⟩, ⟨"deg", false, some (.bool true)⟩] }, -- ned.py 28
  { name := "ecef2ned", variadic := false, hasDoc := true, params := [⟨"x", false, none⟩, ⟨"y", false, none⟩, ⟨"z", false, none⟩, ⟨"lat0", false, none⟩, ⟨"lon0", false, none⟩, ⟨"h0", false, none⟩, ⟨"ell", false, some .none⟩, ⟨"deg", false, some (.bool true)⟩] }, -- ned.py 182
  { name := "ecef2nedv", variadic := false, hasDoc := true, params := [⟨"x", false, none⟩, ⟨"y", false, none⟩, ⟨"z", false, none⟩, ⟨"lat0", false, none⟩, ⟨"lon0", false, none⟩, ⟨"deg", false, some (.bool true)⟩] }, -- ned.py 279
  { name := "ecef2ned_matrix", variadic := false, hasDoc := true, params := [⟨"lat0", false, none⟩, ⟨"lon0", false, none⟩, ⟨"deg", false, some (.bool true)⟩] }, -- ned.py 317
  { name := "geodetic2ned", variadic := false, hasDoc := true, params := [⟨"lat", false, none⟩, ⟨"lon", false, none⟩, ⟨"h", false, none⟩, ⟨"lat0", false, none⟩, ⟨"lon0", false, none⟩, ⟨"h0", false, none⟩, ⟨"ell", false, some .none⟩, ⟨"deg", false, some (.bool true)⟩] }, -- ned.py 230
  { name := "ned2aer", variadic := false, hasDoc := true, params := [⟨"n", false, none⟩, ⟨"e", false, none⟩, ⟨"d", false, none⟩, ⟨"deg", false, some (.bool true)⟩] }, -- ned.py 58
  { name := "ned2ecef", variadic := false, hasDoc := true, params := [⟨"n", false, none⟩, ⟨"e", false, none⟩, ⟨"d", false, none⟩, ⟨"lat0", false, none⟩, ⟨"lon0", false, none⟩, ⟨"h0", false, none⟩, ⟨"ell", false, some .none⟩, ⟨"deg", false, some (.bool true)⟩] }, -- ned.py 136
  { name := "ned2ecef_matrix", variadic := false, hasDoc := true, params := [⟨"lat0", false, none⟩, ⟨"lon0", false, none⟩, ⟨"deg", false, some (.bool true)⟩] }, -- ned.py 325
  { name := "ned2geodetic", variadic := false, hasDoc := true, params := [⟨"n", false, none⟩, ⟨"e", false, none⟩, ⟨"d", false, none⟩, ⟨"lat0", false, none⟩, ⟨"lon0", false, none⟩, ⟨"h0", false, none⟩, ⟨"ell", false, some .none⟩, ⟨"deg", false, some (.bool true)⟩] }, -- ned.py 88
  { name := "aer2sez", variadic := false, hasDoc := true, params := [⟨"az", false, none⟩, ⟨"elev", false, none⟩, ⟨"slantRange", false, none⟩, ⟨"deg", false, some (.bool true)⟩] }, -- sez.py 24
  { name := "ecef2sez", variadic := false, hasDoc := true, params := [⟨"x", false, none⟩, ⟨"y", false, none⟩, ⟨"z", false, none⟩, ⟨"lat0", false, none⟩, ⟨"lon0", false, none⟩, ⟨"h0", false, none⟩, ⟨"ell", false, some .none⟩, ⟨"deg", false, some (.bool true)⟩] }, -- sez.py 83
  { name := "ecef2sezv", variadic := false, hasDoc := true, params := [⟨"x", false, none⟩, ⟨"y", false, none⟩, ⟨"z", false, none⟩, ⟨"lat0", false, none⟩, ⟨"lon0", false, none⟩, ⟨"deg", false, some (.bool true)⟩] }, -- sez.py 101
  { name := "ecef2sez_matrix", variadic := false, hasDoc := true, params := [⟨"lat0", false, none⟩, ⟨"lon0", false, none⟩, ⟨"deg", false, some (.bool true)⟩] }, -- sez.py 128
  { name := "geodetic2sez", variadic := false, hasDoc := true, params := [⟨"lat", false, none⟩, ⟨"lon", false, none⟩, ⟨"h", false, none⟩, ⟨"lat0", false, none⟩, ⟨"lon0", false, none⟩, ⟨"h0", false, none⟩, ⟨"ell", false, some .none⟩, ⟨"deg", false, some (.bool true)⟩] }, -- sez.py 110
  { name := "sez2aer", variadic := false, hasDoc := true, params := [⟨"s", false, none⟩, ⟨"e", false, none⟩, ⟨"z", false, none⟩, ⟨"deg", false, some (.bool true)⟩] }, -- sez.py 33
  { name := "sez2ecef", variadic := false, hasDoc := true, params := [⟨"s", false, none⟩, ⟨"e", false, none⟩, ⟨"z", false, none⟩, ⟨"lat0", false, none⟩, ⟨"lon0", false, none⟩, ⟨"h0", false, none⟩, ⟨"ell", false, some .none⟩, ⟨"deg", false, some (.bool true)⟩] }, -- sez.py 58
  { name := "sez2ecefv", variadic := false, hasDoc := true, params := [⟨"s", false, none⟩, ⟨"e", false, none⟩, ⟨"z", false, none⟩, ⟨"lat0", false, none⟩, ⟨"lon0", false, none⟩, ⟨"deg", false, some (.bool true)⟩] }, -- sez.py 75
  { name := "sez2ecef_matrix", variadic := false, hasDoc := true, params := [⟨"lat0", false, none⟩, ⟨"lon0", false, none⟩, ⟨"deg", false, some (.bool true)⟩] }, -- sez.py 136
  { name := "sez2geodetic", variadic := false, hasDoc := true, params := [⟨"s", false, none⟩, ⟨"e", false, none⟩, ⟨"z", false, none⟩, ⟨"lat0", false, none⟩, ⟨"lon0", false, none⟩, ⟨"h0", false, none⟩, ⟨"ell", false, some .none⟩, ⟨"deg", false, some (.bool true)⟩] }, -- sez.py 41
  { name := "aer2nwu", variadic := false, hasDoc := true, params := [⟨"az", false, none⟩, ⟨"elev", false, none⟩, ⟨"slantRange", false, none⟩, ⟨"deg", false, some (.bool true)⟩] }, -- nwu.py 24
  { name := "ecef2nwu", variadic := false, hasDoc := true, params := [⟨"x", false, none⟩, ⟨"y", false, none⟩, ⟨"z", false, none⟩, ⟨"lat0", false, none⟩, ⟨"lon0", false, none⟩, ⟨"h0", false, none⟩, ⟨"ell", false, some .none⟩, ⟨"deg", false, some (.bool true)⟩] }, -- nwu.py 83
  { name := "ecef2nwuv", variadic := false, hasDoc := true, params := [⟨"x", false, none⟩, ⟨"y", false, none⟩, ⟨"z", false, none⟩, ⟨"lat0", false, none⟩, ⟨"lon0", false, none⟩, ⟨"deg", false, some (.bool true)⟩] }, -- nwu.py 101
  { name := "ecef2nwu_matrix", variadic := false, hasDoc := true, params := [⟨"lat0", false, none⟩, ⟨"lon0", false, none⟩, ⟨"deg", false, some (.bool true)⟩] }, -- nwu.py 128
  { name := "geodetic2nwu", variadic := false, hasDoc := true, params := [⟨"lat", false, none⟩, ⟨"lon", false, none⟩, ⟨"h", false, none⟩, ⟨"lat0", false, none⟩, ⟨"lon0", false, none⟩, ⟨"h0", false, none⟩, ⟨"ell", false, some .none⟩, ⟨"deg", false, some (.bool true)⟩] }, -- nwu.py 110
  { name := "nwu2aer", variadic := false, hasDoc := true, params := [⟨"n", false, none⟩, ⟨"w", false, none⟩, ⟨"u", false, none⟩, ⟨"deg", false, some (.bool true)⟩] }, -- nwu.py 33
  { name := "nwu2ecef", variadic := false, hasDoc := true, params := [⟨"n", false, none⟩, ⟨"w", false, none⟩, ⟨"u", false, none⟩, ⟨"lat0", false, none⟩, ⟨"lon0", false, none⟩, ⟨"h0", false, none⟩, ⟨"ell", false, some .none⟩, ⟨"deg", false, some (.bool true)⟩] }, -- nwu.py 58
  { name := "nwu2ecefv", variadic := false, hasDoc := true, params := [⟨"n", false, none⟩, ⟨"w", false, none⟩, ⟨"u", false, none⟩, ⟨"lat0", false, none⟩, ⟨"lon0", false, none⟩, ⟨"deg", false, some (.bool true)⟩] }, -- nwu.py 75
  { name := "nwu2ecef_matrix", variadic := false, hasDoc := true, params := [⟨"lat0", false, none⟩, ⟨"lon0", false, none⟩, ⟨"deg", false, some (.bool true)⟩] }, -- nwu.py 136
  { name := "nwu2geodetic", variadic := false, hasDoc := true, params := [⟨"n", false, none⟩, ⟨"w", false, none⟩, ⟨"u", false, none⟩, ⟨"lat0", false, none⟩, ⟨"lon0", false, none⟩, ⟨"h0", false, none⟩, ⟨"ell", false, some .none⟩, ⟨"deg", false, some (.bool true)⟩] }, -- nwu.py 41
  { name := "datetime2sidereal", variadic := false, hasDoc := true, params := [⟨"time", false, none⟩, ⟨"lon_radians", false, none⟩, ⟨"force_non_astropy", false, some (.bool false)⟩, ⟨"delta_ut1", false, some (.flt 0 true 1)⟩] }, -- sidereal.py 31
  { name := "greenwichsrt", variadic := false, hasDoc := true, params := [⟨"Jdate", false, none⟩] }, -- sidereal.py 127
  { name := "geodetic2spherical", variadic := false, hasDoc := true, params := [⟨"lat", false, none⟩, ⟨"lon", false, none⟩, ⟨"alt", false, none⟩, ⟨"ell", false, some .none⟩, ⟨"deg", false, some (.bool true)⟩] }, -- spherical.py 20
  { name := "spherical2geodetic", variadic := false, hasDoc := true, params := [⟨"lat", false, none⟩, ⟨"lon", false, none⟩, ⟨"radius", false, none⟩, ⟨"ell", false, some .none⟩, ⟨"deg", false, some (.bool true)⟩] }, -- spherical.py 94
  { name := "str2dt", variadic := false, hasDoc := true, params := [⟨"time", false, none⟩] }, -- timeconv.py 12
  { name := "azel2radec", variadic := false, hasDoc := true, params := [⟨"az_deg", false, none⟩, ⟨"el_deg", false, none⟩, ⟨"lat_deg", false, none⟩, ⟨"lon_deg", false, none⟩, ⟨"time", false, none⟩, ⟨"force_non_astropy", false, some (.bool false)⟩, ⟨"delta_ut1", false, some (.flt 0 true 1)⟩] }, -- azelradec.py 24
  { name := "radec2azel", variadic := false, hasDoc := true, params := [⟨"ra_deg", false, none⟩, ⟨"dec_deg", false, none⟩, ⟨"lat_deg", false, none⟩, ⟨"lon_deg", false, none⟩, ⟨"time", false, none⟩, ⟨"force_non_astropy", false, some (.bool false)⟩, ⟨"delta_ut1", false, some (.flt 0 true 1)⟩] }, -- azelradec.py 85
  { name := "parallel", variadic := false, hasDoc := true, params := [⟨"lat", false, none⟩, ⟨"ell", false, some .none⟩, ⟨"deg", false, some (.bool true)⟩] }, -- rcurve.py 37
  { name := "meridian", variadic := false, hasDoc := true, params := [⟨"lat", false, none⟩, ⟨"ell", false, some .none⟩, ⟨"deg", false, some (.bool true)⟩] }, -- rcurve.py 64
  { name := "transverse", variadic := false, hasDoc := true, params := [⟨"lat", false, none⟩, ⟨"ell", false, some .none⟩, ⟨"deg", false, some (.bool true)⟩] }, -- rcurve.py 94
  { name := "geocentric_radius", variadic := false, hasDoc := true, params := [⟨"geodetic_lat", false, none⟩, ⟨"ell", false, some .none⟩, ⟨"deg", false, some (.bool true)⟩] }, -- rcurve.py 13
  { name := "geodetic2isometric", variadic := false, hasDoc := true, params := [⟨"geodetic_lat", false, none⟩, ⟨"ell", false, some .none⟩, ⟨"deg", false, some (.bool true)⟩] }, -- latitude.py 184
  { name := "isometric2geodetic", variadic := false, hasDoc := true, params := [⟨"isometric_lat", false, none⟩, ⟨"ell", false, some .none⟩, ⟨"deg", false, some (.bool true)⟩] }, -- latitude.py 244
  { name := "geodetic2rectifying", variadic := false, hasDoc := true, params := [⟨"geodetic_lat", false, none⟩, ⟨"ell", false, some .none⟩, ⟨"deg", false, some (.bool true)⟩] }, -- latitude.py 379
  { name := "rectifying2geodetic", variadic := false, hasDoc := true, params := [⟨"rectifying_lat", false, none⟩, ⟨"ell", false, some .none⟩, ⟨"deg", false, some (.bool true)⟩] }, -- latitude.py 430
  { name := "geodetic2conformal", variadic := false, hasDoc := true, params := [⟨"geodetic_lat", false, none⟩, ⟨"ell", false, some .none⟩, ⟨"deg", false, some (.bool true)⟩] }, -- latitude.py 329
  { name := "conformal2geodetic", variadic := false, hasDoc := true, params := [⟨"conformal_lat", false, none⟩, ⟨"ell", false, some .none⟩, ⟨"deg", false, some (.bool true)⟩] }, -- latitude.py 280
  { name := "geodetic2parametric", variadic := false, hasDoc := true, params := [⟨"geodetic_lat", false, none⟩, ⟨"ell", false, some .none⟩, ⟨"deg", false, some (.bool true)⟩] }, -- latitude.py 575
  { name := "parametric2geodetic", variadic := false, hasDoc := true, params := [⟨"parametric_lat", false, none⟩, ⟨"ell", false, some .none⟩, ⟨"deg", false, some (.bool true)⟩] }, -- latitude.py 612
  { name := "geodetic2geocentric", variadic := false, hasDoc := true, params := [⟨"geodetic_lat", false, none⟩, ⟨"alt_m", false, none⟩, ⟨"ell", false, some .none⟩, ⟨"deg", false, some (.bool true)⟩] }, -- latitude.py 99
  { name := "geocentric2geodetic", variadic := false, hasDoc := true, params := [⟨"geocentric_lat", false, none⟩, ⟨"alt_m", false, none⟩, ⟨"ell", false, some .none⟩, ⟨"deg", false, some (.bool true)⟩] }, -- latitude.py 143
  { name := "geodetic2authalic", variadic := false, hasDoc := true, params := [⟨"geodetic_lat", false, none⟩, ⟨"ell", false, some .none⟩, ⟨"deg", false, some (.bool true)⟩] }, -- latitude.py 480
  { name := "authalic2geodetic", variadic := false, hasDoc := true, params := [⟨"authalic_lat", false, none⟩, ⟨"ell", false, some .none⟩, ⟨"deg", false, some (.bool true)⟩] }, -- latitude.py 527
  { name := "geod2geoc", variadic := false, hasDoc := true, params := [⟨"geodetic_lat", false, none⟩, ⟨"alt_m", false, none⟩, ⟨"ell", false, some .none⟩, ⟨"deg", false, some (.bool true)⟩] }, -- latitude.py 99
  { name := "geoc2geod", variadic := false, hasDoc := true, params := [⟨"geocentric_lat", false, none⟩, ⟨"geocentric_distance", false, none⟩, ⟨"ell", false, some .none⟩, ⟨"deg", false, some (.bool true)⟩] }, -- latitude.py 48
  { name := "nvector2geodetic", variadic := false, hasDoc := true, params := [⟨"n1", false, none⟩, ⟨"n2", false, none⟩, ⟨"n3", false, none⟩, ⟨"deg", false, some (.bool true)⟩] }, -- nvector.py 51
  { name := "geodetic2nvector", variadic := false, hasDoc := true, params := [⟨"lat", false, none⟩, ⟨"lon", false, none⟩, ⟨"deg", false, some (.bool true)⟩] }, -- nvector.py 19
  { name := "ecef2nvector", variadic := false, hasDoc := true, params := [⟨"x", false, none⟩, ⟨"y", false, none⟩, ⟨"z", false, none⟩, ⟨"ell", false, some .none⟩, ⟨"deg", false, some (.bool true)⟩] }, -- nvector.py 78
  { name := "nvector2ecef", variadic := false, hasDoc := true, params := [⟨"n1", false, none⟩, ⟨"n2", false, none⟩, ⟨"n3", false, none⟩, ⟨"alt", false, some (.int 0)⟩, ⟨"ell", false, some .none⟩, ⟨"deg", false, some (.bool true)⟩] }, -- nvector.py 101
  { name := "enu2dca", variadic := false, hasDoc := true, params := [⟨"e", false, none⟩, ⟨"n", false, none⟩, ⟨"u", false, none⟩, ⟨"heading", false, none⟩, ⟨"deg", false, some (.bool true)⟩] }, -- dca.py 47
  { name := "dca2enu", variadic := false, hasDoc := true, params := [⟨"dr", false, none⟩, ⟨"cr", false, none⟩, ⟨"above", false, none⟩, ⟨"heading", false, none⟩, ⟨"deg", false, some (.bool true)⟩] }, -- dca.py 61
  { name := "dca2ned", variadic := false, hasDoc := true, params := [⟨"dr", false, none⟩, ⟨"cr", false, none⟩, ⟨"above", false, none⟩, ⟨"heading", false, none⟩, ⟨"deg", false, some (.bool true)⟩] }, -- dca.py 75
  { name := "ned2dca", variadic := false, hasDoc := true, params := [⟨"n", false, none⟩, ⟨"e", false, none⟩, ⟨"d", false, none⟩, ⟨"heading", false, none⟩, ⟨"deg", false, some (.bool true)⟩] }, -- dca.py 83
  { name := "ecef2dca", variadic := false, hasDoc := true, params := [⟨"x", false, none⟩, ⟨"y", false, none⟩, ⟨"z", false, none⟩, ⟨"lat0", false, none⟩, ⟨"lon0", false, none⟩, ⟨"h0", false, none⟩, ⟨"heading", false, none⟩, ⟨"ell", false, some .none⟩, ⟨"deg", false, some (.bool true)⟩] }, -- dca.py 91
  { name := "dca2ecef", variadic := false, hasDoc := true, params := [⟨"dr", false, none⟩, ⟨"cr", false, none⟩, ⟨"above", false, none⟩, ⟨"lat0", false, none⟩, ⟨"lon0", false, none⟩, ⟨"h0", false, none⟩, ⟨"heading", false, none⟩, ⟨"ell", false, some .none⟩, ⟨"deg", false, some (.bool true)⟩] }, -- dca.py 110
  { name := "geodetic2dca", variadic := false, hasDoc := true, params := [⟨"lat", false, none⟩, ⟨"lon", false, none⟩, ⟨"h", false, none⟩, ⟨"lat0", false, none⟩, ⟨"lon0", false, none⟩, ⟨"h0", false, none⟩, ⟨"heading", false, none⟩, ⟨"ell", false, some .none⟩, ⟨"deg", false, some (.bool true)⟩] }, -- dca.py 129
  { name := "dca2geodetic", variadic := false, hasDoc := true, params := [⟨"dr", false, none⟩, ⟨"cr", false, none⟩, ⟨"above", false, none⟩, ⟨"lat0", false, none⟩, ⟨"lon0", false, none⟩, ⟨"h0", false, none⟩, ⟨"heading", false, none⟩, ⟨"ell", false, some .none⟩, ⟨"deg", false, some (.bool true)⟩] }, -- dca.py 147
  { name := "aer2dca", variadic := false, hasDoc := true, params := [⟨"az", false, none⟩, ⟨"el", false, none⟩, ⟨"srange", false, none⟩, ⟨"heading", false, none⟩, ⟨"deg", false, some (.bool true)⟩] }, -- dca.py 165
  { name := "dca2aer", variadic := false, hasDoc := true, params := [⟨"dr", false, none⟩, ⟨"cr", false, none⟩, ⟨"above", false, none⟩, ⟨"heading", false, none⟩, ⟨"deg", false, some (.bool true)⟩] }, -- dca.py 173
  { name := "nvector_distance", variadic := false, hasDoc := true, params := [⟨"n1_1", false, none⟩, ⟨"n1_2", false, none⟩, ⟨"n1_3", false, none⟩, ⟨"n2_1", false, none⟩, ⟨"n2_2", false, none⟩, ⟨"n2_3", false, none⟩, ⟨"radius", false, some .none⟩] }, -- nvector.py 159
  { name := "nvector_interpolate", variadic := false, hasDoc := true, params := [⟨"n1_1", false, none⟩, ⟨"n1_2", false, none⟩, ⟨"n1_3", false, none⟩, ⟨"n2_1", false, none⟩, ⟨"n2_2", false, none⟩, ⟨"n2_3", false, none⟩, ⟨"fraction", false, none⟩] }, -- nvector.py 189
  { name := "nvector_mean", variadic := false, hasDoc := true, params := [⟨"n1s", false, none⟩, ⟨"n2s", false, none⟩, ⟨"n3s", false, none⟩] }, -- nvector.py 231
  { name := "nvector_cross_track_distance", variadic := false, hasDoc := true, params := [⟨"n1_1", false, none⟩, ⟨"n1_2", false, none⟩, ⟨"n1_3", false, none⟩, ⟨"n2_1", false, none⟩, ⟨"n2_2", false, none⟩, ⟨"n2_3", false, none⟩, ⟨"np_1", false, none⟩, ⟨"np_2", false, none⟩, ⟨"np_3", false, none⟩, ⟨"radius", false, some .none⟩] }, -- nvector.py 254
  { name := "nvector_intersection", variadic := false, hasDoc := true, params := [⟨"n1_1", false, none⟩, ⟨"n1_2", false, none⟩, ⟨"n1_3", false, none⟩, ⟨"n2_1", false, none⟩, ⟨"n2_2", false, none⟩, ⟨"n2_3", false, none⟩, ⟨"n3_1", false, none⟩, ⟨"n3_2", false, none⟩, ⟨"n3_3", false, none⟩, ⟨"n4_1", false, none⟩, ⟨"n4_2", false, none⟩, ⟨"n4_3", false, none⟩] }, -- nvector.py 291
  { name := "aer2eci", variadic := false, hasDoc := true, params := [⟨"az", false, none⟩, ⟨"el", false, none⟩, ⟨"srange", false, none⟩, ⟨"lat0", false, none⟩, ⟨"lon0", false, none⟩, ⟨"h0", false, none⟩, ⟨"t", false, none⟩, ⟨"ell", false, some .none⟩, ⟨"deg", false, some (.bool true)⟩, ⟨"delta_ut1", false, some (.flt 0 true 1)⟩, ⟨"xp", false, some (.flt 0 true 1)⟩, ⟨"yp", false, some (.flt 0 true 1)⟩] }, -- aer.py 228
  { name := "eci2aer", variadic := false, hasDoc := true, params := [⟨"x", false, none⟩, ⟨"y", false, none⟩, ⟨"z", false, none⟩, ⟨"lat0", false, none⟩, ⟨"lon0", false, none⟩, ⟨"h0", false, none⟩, ⟨"t", false, none⟩, ⟨"deg", false, some (.bool true)⟩, ⟨"delta_ut1", false, some (.flt 0 true 1)⟩, ⟨"xp", false, some (.flt 0 true 1)⟩, ⟨"yp", false, some (.flt 0 true 1)⟩] }, -- aer.py 169
  { name := "ecef2eci", variadic := false, hasDoc := true, params := [⟨"x", false, none⟩, ⟨"y", false, none⟩, ⟨"z", false, none⟩, ⟨"time", false, none⟩, ⟨"force_non_astropy", false, some (.bool false)⟩, ⟨"delta_ut1", false, some (.flt 0 true 1)⟩, ⟨"xp", false, some (.flt 0 true 1)⟩, ⟨"yp", false, some (.flt 0 true 1)⟩] }, -- eci.py 119
  { name := "eci2ecef", variadic := false, hasDoc := true, params := [⟨"x", false, none⟩, ⟨"y", false, none⟩, ⟨"z", false, none⟩, ⟨"time", false, none⟩, ⟨"force_non_astropy", false, some (.bool false)⟩, ⟨"delta_ut1", false, some (.flt 0 true 1)⟩, ⟨"xp", false, some (.flt 0 true 1)⟩, ⟨"yp", false, some (.flt 0 true 1)⟩] }, -- eci.py 27
  { name := "ecef2eci_state", variadic := false, hasDoc := true, params := [⟨"x", false, none⟩, ⟨"y", false, none⟩, ⟨"z", false, none⟩, ⟨"vx", false, none⟩, ⟨"vy", false, none⟩, ⟨"vz", false, none⟩, ⟨"time", false, none⟩, ⟨"force_non_astropy", false, some (.bool false)⟩, ⟨"delta_ut1", false, some (.flt 0 true 1)⟩, ⟨"xp", false, some (.flt 0 true 1)⟩, ⟨"yp", false, some (.flt 0 true 1)⟩] }, -- eci.py 298
  { name := "eci2ecef_state", variadic := false, hasDoc := true, params := [⟨"x", false, none⟩, ⟨"y", false, none⟩, ⟨"z", false, none⟩, ⟨"vx", false, none⟩, ⟨"vy", false, none⟩, ⟨"vz", false, none⟩, ⟨"time", false, none⟩, ⟨"force_non_astropy", false, some (.bool false)⟩, ⟨"delta_ut1", false, some (.flt 0 true 1)⟩, ⟨"xp", false, some (.flt 0 true 1)⟩, ⟨"yp", false, some (.flt 0 true 1)⟩] } -- eci.py 202
]

end Pymap3d
