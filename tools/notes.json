{"C12": ["proved", "Assumes that each Get and Set of the cache is atomic; the cache package (ilius/go-lru) is not in the repository."],
 "C70": ["proved", "Assumes that each Get and Set of the cache is atomic; the cache package (ilius/go-lru) is not in the repository."]}
