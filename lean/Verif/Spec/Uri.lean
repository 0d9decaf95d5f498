/-! # Characters of a URI: RFC 3986 unreserved, reserved, and the percent sign -/

namespace Spec

def uriChars : List Char :=
  "ABCDEFGHIJKLMNOPQRSTUVWXYZabcdefghijklmnopqrstuvwxyz0123456789-._~:/?#[]@!$&'()*+,;=%".toList

end Spec
